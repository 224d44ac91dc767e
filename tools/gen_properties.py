import json
P=[]
def p(title, statement, quantifier, why, anchors):
    P.append(dict(id="C%02d"%(len(P)+1), title=title, statement=statement, quantifier=quantifier, why_tests_cant=why, anchors=anchors))
G="src/math/galois/mod.rs"; C="extern/galois/galois.c"; M="src/math/mod.rs"; S="src/sharing.rs"; CI="src/circuit.rs"
PR="src/protocol/mod.rs"; N="src/protocol/network.rs"; CO="src/protocol/core.rs"; PP="src/protocol/preproc.rs"; GA="src/protocol/garble.rs"
def a(f,*s): return [f+"::"+x for x in s]

# ---- field
p("Table initialisation succeeds for every supported width",
  "For every field width W from 1 to 29, the first GF::<W>::init() of a process runs to completion without hitting the table self-check, without reading or writing outside the allocated tables and without int overflow, and returns Ok; for W = 31 and above it returns Err without touching memory; W = 30 overflows a C int.",
  "all W, all loop iterations (up to 2^29-1) of the table construction",
  "the largest widths need gigabyte tables; a test only exercises W = 18 and cannot show that the hard-coded polynomial of every width is primitive",
  a(C,"galois_create_log_tables","prim_poly")+a(G,"GF::init"))
p("Field multiplication is polynomial multiplication modulo the primitive polynomial",
  "After init, for every two elements a, b of GF<W> the product a * b is in range and, read as a polynomial over GF(2), equals the product of the polynomials of a and b reduced modulo the fixed degree-W polynomial of that width; no table access is out of bounds.",
  "all W in 1..29, all pairs of field elements",
  "2^36 pairs already for W = 18",
  a(C,"galois_logtable_multiply")+a(G,"Mul","MulAssign"))
p("GF<W> is a field of order 2^W",
  "After init, +, -, *, / on GF<W> satisfy all the field laws (associativity, commutativity, distributivity, identities ZERO and ONE, x - x = 0, (a / b) * b = a for b != 0), every operation on in-range elements stays in range, and there are exactly 2^W elements.",
  "all W in 1..29, all triples of field elements",
  "algebraic laws quantify over all triples of elements",
  a(C,"galois_logtable_multiply","galois_logtable_divide")+a(G,"Add","Sub","Mul","Div","GF::ZERO","GF::ONE","GF::ORDER"))
p("Converting an integer to a field element always gives a field element",
  "GF::from(v) is v itself for v < ORDER, and for larger v it is some element of the field (v reduced); it never reads outside the log tables. (False for v >= ORDER: the reduction multiplies the out-of-range value, indexing the log table past its end.)",
  "all u32 values v, all W",
  "the tests only convert small constants; an out-of-bounds read need not crash",
  a(G,"From<u32> for GF<W>")+a(C,"galois_logtable_multiply"))
p("Field element encoding round-trips and decodes only field elements",
  "serialize(x) is exactly NUM_BYTES bytes and deserialize(serialize(x)) = x for every element; conversely every byte string of NUM_BYTES bytes that deserialize accepts denotes an element below ORDER. (The second half is false unless 8 divides W.)",
  "all W, all field elements, all byte strings",
  "hostile or corrupt byte strings are never produced by serialize in tests",
  a(G,"Serialize","Deserialize","GFVisitor::visit_seq","GF::NUM_BYTES"))
p("Share-vector payloads round-trip",
  "A vector of field elements serialized as a message payload has length 8 + NUM_BYTES * k and deserializes to the same vector, for every vector.",
  "all vectors of any length",
  "unbounded lengths and contents",
  a(G,"Serialize","Deserialize")+a(CO,"reduce_degree","trans","randtrans"))
p("Initialising one field width does not affect another",
  "In one process, after GF::<W>::init() returned Ok, multiplication, division and rand in GF<W> work and stay below 2^W, whatever other widths were initialised or sampled before. (False: the Once and the sampling distribution are statics inside a generic impl, hence shared by all widths; also a second init() after a failed one returns Ok.)",
  "all sequences of init, rand, mul and div calls at all widths",
  "the test-suite only ever uses W = 18",
  a(G,"GF::init","GF::get_dist","GF::rand"))
# ---- math
p("lagrange_coeffs interpolates every low-degree polynomial",
  "For distinct cpos, every npos and every polynomial p of degree below cpos.len(), multiplying the returned matrix with the evaluations of p at cpos gives the evaluations of p at npos; the matrix has npos.len() rows and cpos.len() columns.",
  "all fields, all lists of distinct positions, all evaluation points, all polynomials",
  "infinitely many positions and polynomials",
  a(M,"lagrange_coeffs"))
p("super_inv_matrix is super-invertible",
  "For num_out <= num_inp < ORDER, every selection of num_out distinct columns of super_inv_matrix(num_inp, num_out) is an invertible square matrix: for every setting of the other inputs, the outputs are a bijective function of any num_out inputs.",
  "all sizes, all column subsets, all values of the remaining inputs",
  "exponentially many column subsets",
  a(M,"super_inv_matrix","rs_gen_mat"))
p("rs_gen_mat generates a maximum-distance code",
  "For mssg_len <= code_len < ORDER two different messages give codewords differing in at least code_len - mssg_len + 1 places, so a codeword with fewer than half that many errors determines the message.",
  "all sizes, all pairs of messages, all error patterns",
  "all pairs of messages over a field of 2^18 elements",
  a(M,"rs_gen_mat"))
p("binary_super_inv_matrix accepts exactly rectangular 0/1 files",
  "Reading a file of r lines of c space-separated 0/1 entries yields the c x r transposed matrix over {ZERO, ONE}; any other entry is rejected, and so is a file whose lines have different lengths. (The last clause is false: only the total number of entries is checked against the number of lines.)",
  "all files",
  "files of every shape",
  a(M,"binary_super_inv_matrix"))
p("The shipped binary matrices are super-invertible for the threshold in their name",
  "For every file n<N>_t<T>.txt of data/binsup_mat: the matrix read by binary_super_inv_matrix has N columns, and over every field of characteristic 2, whatever the inputs of any T parties are, all outputs are possible and uniform input bits of the other parties give uniform output bits. (False for six of the seven files, among them n16_t5.txt of the README: some T or fewer parties know the sum of some outputs. True for n128_t31.txt.)",
  "all T-subsets of parties, all fields of characteristic 2, all inputs", "C(128,31) subsets",
  ["data/binsup_mat/n16_t5.txt", "data/binsup_mat/n128_t31.txt", "data/binsup_mat/n256_t43.txt", "data/binsup_mat/n256_t53.txt", "data/binsup_mat/n256_t65.txt", "data/binsup_mat/n256_t89.txt", "data/binsup_mat/n512_t131.txt", "src/math/mod.rs::binary_super_inv_matrix", "src/protocol/preproc.rs::randbit"])
p("Combination inferred from an instance reproduces it on every relabelling",
  "If every element of out occurs in inp then Combination::from_instance(inp, out) is defined, has length out.len(), and applying it to any relabelling of inp gives the same relabelling of out; if some element of out is missing from inp, construction panics.",
  "all lists inp, out, all relabellings",
  "unbounded lists",
  a(M,"Combination::from_instance","Combination::apply","Combination::len"))
# ---- sharing
p("Sharing then reconstruction returns the secrets",
  "For distinct secret positions disjoint from the n share positions and l <= d + 1 <= n, share() returns n shares lying on one polynomial of degree at most d that takes the secrets at the secret positions, and both semihon_recon() and recon() return the secrets, for every secret vector and every random tape.",
  "all n, d, l, positions, secrets, randomness",
  "all random tapes and parameter choices",
  a(S,"PackedSharing::new","PackedSharing::share","PackedSharing::semihon_recon","PackedSharing::recon"))
p("Any t shares reveal nothing about the secrets",
  "With degree t + l - 1, for every set of t parties and every secret vector, the map from the random tape to the t shares is a bijection; hence the joint distribution of t shares is uniform and independent of the secrets.",
  "all parameters, all t-subsets, all secret vectors, all tapes",
  "a distributional statement over exponentially many tapes",
  a(S,"PackedSharing::share","PackedSharing::share_using_coeffs"))
p("Reconstruction accepts exactly consistent share vectors and detects tampering",
  "recon() returns Ok exactly when the n shares lie on a polynomial of degree at most d (and then returns its values at the secret positions); altering between 1 and n - d - 1 shares of a valid sharing always yields MaliciousBehavior; a vector of the wrong length yields the other error.",
  "all share vectors, all sets and sizes of alterations",
  "all alterations of all share vectors",
  a(S,"PackedSharing::recon"))
p("Shares are linearly homomorphic",
  "Adding two share vectors, or multiplying one by a constant, gives shares of the sum or multiple of the secrets, at the same degree.",
  "all sharings, all constants", "all values", a(S,"PackedSharing::share","PackedSharing::semihon_recon"))
p("Products of shares reconstruct at degree n-1",
  "If 2d < n, the entrywise product of two degree-d share vectors reconstructs under the degree n-1 scheme to the entrywise product of the secrets.",
  "all sharings and parameters with 2d < n", "all values and parameters",
  a(S,"PackedSharing::semihon_recon"))
p("PackedSharing::rand is a uniformly random consistent sharing",
  "rand() returns n shares on a polynomial of degree at most d, and the map from random tapes to such polynomials is a bijection, so the shared secrets are uniform.",
  "all tapes, all parameters", "distributional", a(S,"PackedSharing::rand"))
p("Share, default and wire positions never collide",
  "If n + l + num_wires <= ORDER then the n share positions, the l default secret positions and the positions of all wires are pairwise distinct field elements.",
  "all n, l, circuits within the field size", "all sizes",
  a(S,"PackedSharing::share_pos","PackedSharing::default_pos","PackedSharing::wire_to_pos"))
# ---- circuit
p("Parsing a Bristol-fashion file yields the circuit it describes",
  "For every well-formed Bristol-fashion description, from_bristol_fashion returns the gates in file order, input values as consecutive wires from 0, and output values as the last wires in the order the header lists them. (The output order is false for two or more output values: they come back reversed.)",
  "all circuits, all header layouts", "unbounded files; the shipped circuits have a single output value",
  a(CI,"Circuit::from_bristol_fashion"))
p("Evaluation computes the circuit's unique consistent wire assignment",
  "For a circuit in which every gate reads only circuit inputs and outputs of earlier gates and every wire is driven once, eval returns the output wires of the one assignment that satisfies the inputs and every gate equation, whatever order the gates are considered in.",
  "all circuits, all inputs", "all circuits and inputs",
  a(CI,"Circuit::eval"))
p("Packing keeps every gate exactly once, in homogeneous blocks of bounded size",
  "pack(k) for k >= 1 partitions the gates: unpacking the blocks gives a permutation of the original gates, each block has one gate kind and between 1 and k gates, only the last block of a kind may be short, and block inputs/outputs are positionally aligned; circuit inputs and outputs are split into chunks preserving order; pack(k) panics exactly for k = 0.",
  "all circuits, all block sizes", "all circuits and block sizes",
  a(CI,"Circuit::pack","Circuit::pack_gate_info","PackedGateInfo::from"))
p("Packing preserves circuit semantics",
  "For a well-formed circuit the wire assignment computed by eval is the unique assignment satisfying all packed gate equations, so the packed circuit (whose gate order is not topological) defines the same function.",
  "all well-formed circuits, inputs and block sizes", "all circuits",
  a(CI,"Circuit::pack","Circuit::eval"))
p("Gate block counts are the rounded-up quotients",
  "get_gate_counts of a packed circuit returns ceil(#AND/k), ceil(#XOR/k), ceil(#INV/k), and the number of blocks is their sum.",
  "all circuits and block sizes", "all circuits", a(CI,"PackedCircuit::get_gate_counts"))
# ---- protocol ids
p("Child protocol IDs are pairwise distinct extensions of the parent",
  "The IDs returned by one builder before it first returns None all extend the parent ID by the same number of bytes and are pairwise distinct; the i-th is the little-endian encoding of i.",
  "all parents, all bounds, all numbers of calls", "up to 2^64 calls",
  a(PR,"ProtocolIDBuilder::next","ProtocolIDBuilder::increment_bytes"))
p("A builder created for num children can create num children",
  "ProtocolIDBuilder::new(id, num) returns Some for at least its first num calls of next. (False exactly when num is a positive power of 256 or 1: the last available ID is never returned.)",
  "all num >= 1", "boundary values such as 1, 256, 65536",
  a(PR,"ProtocolIDBuilder::new","ProtocolIDBuilder::next"))
p("An exhausted builder stays exhausted",
  "Once next has returned None it never again returns an ID, in particular no ID is ever returned twice. (False: the counter wraps and the IDs repeat.)",
  "all call sequences", "needs calls past exhaustion",
  a(PR,"ProtocolIDBuilder::next"))
p("Concurrent subprotocols of one garbling never share a protocol ID",
  "The protocol IDs used by all subprotocols spawned by one garble() call are pairwise distinct, and likewise for one preproc() call, for every circuit and party count.",
  "all circuits, party counts, parents", "all circuits",
  a(GA,"garble","garble_and","Transforms::gen_rand_shares","Transforms::transform")+a(PP,"preproc"))
p("Garbling never runs out of protocol IDs",
  "For every circuit, garble() obtains all the protocol IDs it needs. (False: e.g. a circuit with at most l blocks, or with 252 gate blocks, panics); preproc() always obtains all of its IDs.",
  "all circuits and party counts", "specific sizes only",
  a(GA,"garble","Transforms::gen_rand_shares","Transforms::transform")+a(PP,"preproc"))
# ---- network
p("TCP framing round-trips every message sequence",
  "For every sequence of messages whose protocol IDs are at most 255 bytes long, decoding the bytes written by the sender task yields the same sequence of (ID, data) pairs, at every message length.",
  "all sequences of messages, all lengths below 2^64", "all lengths across the nine length-prefix sizes",
  a(N,"party_sender","party_receiver"))
p("recv returns messages of the requested protocol in arrival order",
  "In every interleaving of message arrivals and recv requests in which no protocol ID has two outstanding requests, the k-th recv(id) is answered by the k-th message that arrived with that id, as soon as both exist.",
  "all interleavings, all IDs", "unboundedly many schedules",
  a(N,"receive_router")+a(PR,"ProtoHandle::recv"))
p("The receive router neither loses, duplicates nor misroutes messages",
  "In every run of the router, each arrived message is either delivered exactly once, to a request for its own protocol ID, or still queued.",
  "all event sequences", "unboundedly many schedules", a(N,"receive_router"))
p("Concurrent recv calls on the same protocol ID are all answered",
  "If k requests for an ID are outstanding and k messages arrive, all k requests are answered. (False: a second outstanding request replaces the first, whose recv panics.)",
  "all interleavings", "needs a specific interleaving", a(N,"receive_router")+a(PR,"ProtoHandle::recv"))
p("message_from_each_party returns the first message of every party in party order, whatever the arrival order",
  "For every arrival sequence, it returns as soon as every party has sent a message, with entry p equal to p's first message; later messages of the same party are dropped; the result depends only on each party's own message order.",
  "all arrival sequences and party counts", "all interleavings",
  a(N,"message_from_each_party"))
p("Messages between two parties arrive exactly once and in order",
  "In the local network and through the TCP send router, under every scheduling of the forwarding tasks, the messages A sent to B (directly or by Recipient::All, including to itself) reach B's router exactly once and in the order A sent them.",
  "all schedules, all message sequences, all party counts", "unboundedly many schedules",
  a(N,"setup_local_network","send_router"))
p("sync is a barrier",
  "In every schedule, no party's sync() returns before every party has called sync() with that ID.",
  "all schedules and party counts", "all interleavings", a(N,"sync","message_from_each_party"))
p("Communication statistics equal the bytes received",
  "After any event sequence, Stats::party(p) is the pair (sum of payload lengths, sum of payload plus protocol ID lengths) over the messages that arrived from p, total() is the sum over parties, and the difference taken by elapsed() never underflows.",
  "all event sequences", "all histories", a(N,"Stats::increment","Stats::party","Stats::total","receive_router")+["src/lib.rs::Stats::now","src/lib.rs::Stats::elapsed"])
p("Peer connection setup connects every pair exactly once",
  "When all parties run connect_to_peers, party i dials exactly the parties below i and accepts one connection from each party above i, so that in every accept order its stream table ends up with the connection to j at index j for all j != i and nothing at index i. A party whose number has no address does not start.",
  "all party counts and all accept orders", "all orders", a(N,"connect_to_peers"))
# ---- core protocols
p("Degree reduction preserves the secrets and restores the degree",
  "If the parties' inputs lie on polynomials of degree below n, the random shares on degree below t + l and the zero shares on degree-below-n polynomials vanishing at the default positions, then after reduce_degree the parties hold, for every element, shares of degree at most t + l - 1 of the same secrets, for every leader and all leader randomness.",
  "all inputs, all preprocessing material, all leaders, all randomness, all vector lengths", "all values", a(CO,"reduce_degree"))
p("Secure multiplication multiplies the secrets",
  "If 2(t + l - 1) < n, mult on sharings of x and y gives degree t + l - 1 sharings of the entrywise product.",
  "all inputs and randomness", "all values", a(CO,"mult"))
p("The leader of a degree reduction learns nothing",
  "For fixed inputs, when the random sharing is uniform among degree t+l-1 sharings and the zero sharing uniform among degree n-1 zero sharings, the vector of n messages the leader receives is uniform, hence independent of the inputs.",
  "all inputs, all view vectors", "distributional", a(CO,"reduce_degree"))
p("Share transformation moves and selects secrets",
  "Given shares of x at the old positions and a random pair (r at old positions with degree n-1, f(r) at new positions with degree t+l-1), trans gives degree t+l-1 shares of f(x) at the new positions, including when fewer than l positions are used.",
  "all inputs, positions, selections f, leaders and randomness", "all values", a(CO,"trans","SharingTransform::new"))
p("randtrans produces correctly correlated random sharings",
  "If t + 2l <= n, then for every batch of at most l transformations randtrans gives, for each transformation k, sharings r_n at its old positions (degree n-1) and r at its new positions (degree t+l-1) with r = f_k(r_n).",
  "all batches, positions, selections and randomness", "all values", a(CO,"randtrans","RandSharingTransform::new"))
p("Leader-based and all-to-all rounds give the same result under every schedule",
  "In every interleaving of the parties' steps and message deliveries, a run of the leader protocol (reduce_degree, mult, trans) or of an all-to-all round (rand, zero, randbit, randtrans) cannot get stuck, always terminates, and ends with the outputs of the sequential description; the leader's second-round message is never mistaken for a first-round one.",
  "all schedules, all party counts", "unboundedly many schedules", a(CO,"reduce_degree","trans","randtrans")+a(PP,"rand")+a(N,"message_from_each_party"))
p("All parties agree on the leader",
  "The leader depends only on the protocol ID and the number of parties and is a valid party index, for every hash function.",
  "all IDs, all n >= 1", "all IDs", a(CO,"leader_from_proto_id"))
# ---- preproc
p("rand, zero and randbit output valid sharings, at least as many as requested",
  "For all parties' random tapes, rand gives degree t+l-1 sharings, zero gives degree n-1 sharings of zero and randbit gives degree t+l-1 sharings whose secrets are all 0 or 1; the number of sharings is the least multiple of the batch size that is at least the requested number, the same at all parties.",
  "all tapes, counts, matrices", "all tapes", a(PP,"rand","zero","randbit","num_batches"))
p("Honest randomness makes rand outputs uniform",
  "For every choice of t corrupted parties and their contributions, the outputs of rand per batch are a bijective function of the honest parties' sharings restricted to any n-t honest parties.",
  "all corruptions", "all subsets", a(PP,"rand")+a(M,"super_inv_matrix"))
p("Preprocessing counts match what garbling consumes",
  "For every circuit and parameters, garble() consumes exactly the number of random, zero and error shares that describe() reports, never draining more than available.",
  "all circuits and parameters", "all circuits", a(PP,"PreProcCount::new","PreProc::describe")+a(GA,"garble"))
p("preproc produces the material described",
  "preproc() with the counts of describe() never drains more than available and returns masks, keys and errors of exactly the described shapes and at least the described number of random and zero shares, for every party count and matrix sizes.",
  "all counts and parameters", "all parameters", a(PP,"preproc"))
p("Error shares are products of two bits and a random scalar",
  "Each error share produced by preproc is a degree t+l-1 sharing whose secrets are b0*b1*s for the corresponding secrets of two bit sharings and a random sharing, hence zero whenever either bit is zero.",
  "all material", "all values", a(PP,"preproc"))
p("Dummy preprocessing is consistent across parties",
  "PreProc::dummy called by all parties with the same seed gives mask shares of bits, key/random/error shares of degree t+l-1 and zero shares of degree n-1 with zero secrets, all lying on common polynomials.",
  "all seeds (random tapes), counts and parties", "all tapes", a(PP,"PreProc::dummy"))
p("Serialized preprocessing material round-trips",
  "Deserializing a serialized PreProc gives the same masks, keys, random, zero and error shares with the same shapes. (False: the key array comes back with its axes in a different shape, and an empty mask list divides by zero.)",
  "all preprocessing material", "never exercised by the tests", a(PP,"PreProcSer","From<PreProc<W>> for PreProcSer<W>","From<PreProcSer<W>> for PreProc<W>"))
# ---- garble
p("The wire-to-block map finds the block that drives each wire",
  "For a circuit in which every wire is driven at most once, the map sends each circuit-input wire to its input block and each gate output wire to its gate block (offset by the number of input blocks), and has no other entries; so every gate input of a well-formed circuit is found.",
  "all circuits and packing parameters", "all circuits", a(GA,"GarbleContext::compute_wire_to_block_map"))
p("Selection assembles the shares of a gate's input wires",
  "If each block's sharing carries wire w's value at the position of w, then the locally selected share of a gate input block lies on a polynomial of degree at most t + 2l - 2 that carries, for each distinct input wire, its value at its position.",
  "all circuits, gates, share values", "all values", a(GA,"select"))
p("Each gate receives the masks of its own input wires",
  "After the two transformation rounds, slot j of gate g's i-th input mask sharing is the mask of the wire that is g's i-th input in slot j, for every packed circuit and every preprocessing material.",
  "all circuits, material, randomness", "all values", a(GA,"garble","select","Transforms::transform"))
p("Each gate receives the labels of its own input wires",
  "After the two transformation rounds, slot j of gate g's i-th input label sharing is the pair of labels that the gate (or input) driving that wire uses as its output labels. (False: the key array is re-shaped instead of transposed, so labels of different wires, label bits and label positions are mixed up.)",
  "all circuits and key material", "labels are random, tests only look at shapes", a(GA,"garble"))
p("AND tables select the label of the masked product",
  "Row 2i+j of a garbled AND gate encodes, in every slot, the output label number e = (i+a)(j+b)+c together with the bit c+e, where a, b, c are the masks of the left, right and output wire.",
  "all masks, labels, randomness", "all values", a(GA,"garble_and"))
p("XOR tables select the label of the masked sum",
  "Row 2i+j of a garbled XOR gate encodes, in every slot, the output label number e = i+a+j+b+c together with the bit c+e.",
  "all masks, labels, randomness", "all values", a(GA,"garble_xor"))
p("INV tables select the label of the negated wire",
  "Row i of a garbled INV gate encodes, in every slot, the output label number e = i+a+1+c, i.e. the label of the negated value. (False: it encodes number i+a+c, the label of the un-negated value.)",
  "all masks, labels, randomness", "tests only look at shapes", a(GA,"garble_inv"))
p("Decrypting a table row reveals the next label and its colour bit but not the wire value",
  "The last plaintext element of each row is the colour (masked) bit of the output wire. (False: it is the colour bit plus the output mask, which is the cleartext value of the wire.)",
  "all masks, labels", "tests only look at shapes", a(GA,"garble_and","garble_xor","garble_inv"))
p("Ciphertext rows decrypt with the matching labels",
  "Reconstructing a ciphertext row and subtracting, in each slot, that slot's LPN matrix times the sum of the matching input labels which the gate received (see C57) gives the encoding of the plaintext plus the error vector; with fewer errors than half the code distance the plaintext is determined.",
  "all rows, slots, material", "all values", a(GA,"garble_and","garble_xor","garble_inv","LPNMatrix::new")+a(M,"rs_gen_mat"))
p("Every garbled row is masked",
  "In every garbled table row the LPN key that masks the plaintext is not identically zero. (False when a gate reads the same wire twice: rows 0 and 3 are masked with the zero key, i.e. sent in the clear up to the error.)",
  "all circuits and labels", "needs special circuits", a(GA,"garble_and","garble_xor"))
p("LPN matrices are never re-used with the same key",
  "Assuming the hash is injective on the strings hashed, two different gates that in some slot read the same pair of wires (in either order), or the same wire at the same side, get different LPN matrices.",
  "all circuits and packing parameters", "all circuits", a(GA,"LPNMatrix::compute_lookup","LPNMatrix::update_counts","LPNMatrix::hash_inp_wires"))
p("LPN matrix table is consistent",
  "compute_lookup assigns each gate an index below the number of nonces, two gates share an index exactly when their nonces are equal, and the nonce stored at a gate's index is that gate's nonce.",
  "all circuits", "all circuits", a(GA,"LPNMatrix::compute_lookup","LPNMatrix::get"))
p("Garbled tables have the promised shapes",
  "garble returns one table per packed gate, with 4 rows for AND and XOR, 2 rows for INV, and lpn_mssg_len columns.",
  "all circuits", "all circuits", a(GA,"garble","GarbledCircuit"))
p("Malformed gate lines are rejected",
  "A gate line with an unknown gate name, with a number of inputs different from what the gate kind needs, or a file with fewer gate lines than announced, is rejected. (False: surplus inputs are silently dropped.)",
  "all files", "infinite input space", a(CI,"from_bristol_fashion"))
p("eval rejects inputs of the wrong shape",
  "Circuit::eval panics if the number or lengths of the supplied input vectors differ from the declared inputs. (False: missing bits count as false, surplus bits are ignored.)",
  "all circuits and inputs", "infinite input space", a(CI,"eval"))
p("Packing order",
  "Within each gate kind, pack orders the gates by their busiest input (number of reads by gates of that kind, ties by wire number), and gates with equal keys keep file order, so all parties that read the same file compute the same blocks.",
  "all circuits", "all circuits", a(CI,"pack","pack_gate_info"))
p("The leader of a transformation learns nothing",
  "For fixed inputs and fixed mask shares of any t corrupted parties, the number of pairs of correlated masks that explain a vector of messages to the leader of trans is the same for all inputs and all message vectors.",
  "all inputs, views, corruptions, transformations", "distributional", a(CO,"trans"))
p("Parameters too small for randtrans are harmless",
  "If only t + l <= n is guaranteed (the bound PackedSharing::new checks), randtrans still gives correlated sharings. (False: without t + 2l <= n the secrets of different transformations of a batch are mixed up silently, for all parameters with l at least 2. With l = 1, and for batches with one transformation, it is true.)",
  "all parameters", "depends on the parameters chosen by the user", a(CO,"randtrans","RandSharingTransform::new"))
p("Abandoning a recv is harmless",
  "Dropping the future of a recv that has not been answered (timeout, select!, task abort) leaves the router working for all other protocols. (False: the next message with that ID makes the router task panic.)",
  "all router states", "depends on timing", a(N,"receive_router"))
p("Local and TCP network deliver the same messages",
  "A message that reaches its recipient through the local network also reaches it through the TCP network. (False for protocol IDs of more than 255 bytes: the sender task panics; true otherwise.)",
  "all messages", "needs two backends and infinite input space", a(N,"setup_local_network","party_sender"))
p("sync can be repeated with the same ID",
  "Parties that call sync() several times with the same protocol ID all get through, over every network that delivers each message once and keeps the order between each pair of parties. (False with three or more parties: the message of a fast party's second call can be taken for another party's message of the first call, after which a party waits forever.)",
  "all schedules and party counts", "depends on rare timing", a(N,"sync")+a("src/bin/preproc.rs","main"))
p("Keys used with one LPN matrix are independent",
  "Assuming the hash is injective on the strings hashed and no gate reads one wire at both sides, the keys (sums of input labels) which are used with the same LPN matrix in the same slot are linearly independent combinations of the labels, whichever rows of the tables are considered.",
  "all circuits and packing parameters", "all circuits", a(GA,"LPNMatrix::compute_lookup","LPNMatrix::update_counts","LPNMatrix::hash_inp_wires","garble_and","garble_xor","garble_inv"))
p("Rows chosen by colour bits hold the label of the gate's result",
  "For every assignment of values to the wires, in every slot of every gate, the row which the colour bits (value plus mask) of the input wires choose holds the output label whose number is the colour bit of the gate's result. (False for INV, true for AND and XOR.)",
  "all circuits, values, masks, labels, randomness", "tests only look at shapes", a(GA,"garble_and","garble_xor","garble_inv"))
p("preproc gives the same result under every schedule",
  "preproc spawns rand, zero, randbit and one task per leader, all of which share one network handle. For every interleaving of these tasks at all parties and of message deliveries (order kept per pair of parties), all tasks end without panic or deadlock, and every party's PreProc is the one computed when the protocols run one after the other; in particular it satisfies C50.",
  "all schedules, party counts, descriptions, randomness", "number of interleavings is unbounded", a(PP,"preproc","rand","zero","randbit")+a(CO,"mult","reduce_degree")+a(N,"receive_router"))
p("garble gives the same tables under every schedule",
  "garble spawns one task per batch of random transformations, per transformation and per gate, all of which share one network handle. If the protocol IDs can be drawn (see C30), then for every interleaving of these tasks at all parties and of message deliveries (order kept per pair of parties), all tasks end without panic or deadlock, and every party's tables are those computed when the protocols run one after the other; in particular they satisfy C62.",
  "all schedules, circuits, material, randomness", "number of interleavings is unbounded", a(GA,"garble","garble_and","garble_xor","garble_inv","Transforms::gen_rand_shares","Transforms::transform")+a(CO,"mult","trans","randtrans")+a(N,"receive_router"))
p("Repetitions of the benchmark programs do not disturb each other",
  "The benchmark programs run preproc or garble --reps times with the same protocol IDs, with a sync before each repetition. For every interleaving, all repetitions end without panic or deadlock and each gives the result of its sequential execution, although messages of one repetition can arrive during another; likewise when measurements are collected at the end.",
  "all schedules, numbers of repetitions, party counts, circuits, randomness", "number of interleavings is unbounded", a("src/bin/preproc.rs","benchmark")+a("src/bin/garble.rs","benchmark")+a(N,"sync","message_from_each_party","receive_router")+a(PP,"preproc")+a(GA,"garble"))
p("A party which ends does not stop the others",
  "When a benchmark program has ended at one party, the programs of the other parties still get to their end. (False with --save: party 0 ends before its message done has left, and all other parties wait forever, in every schedule. False without --save: messages of the last protocol can be lost. True if a process only ends when its messages have been written.)",
  "all schedules", "depends on timing at the end of processes", a("src/bin/preproc.rs","benchmark","main")+a("src/bin/garble.rs","benchmark","main")+a(N,"send_router","party_sender"))
p("The TCP network is as good as ideal channels",
  "When the parties run over the TCP network (send_router, one party_sender and party_receiver per peer, receive_router; bytes are written and arrive in arbitrary portions; all of these tasks interleave arbitrarily), every set of concurrent protocol runs that succeeds sequentially ends without panic or deadlock in every schedule, with the results of the sequential execution, provided IDs have at most 255 bytes and message lengths fit in 64 bits. Every execution over the network looks to the parties like one over per-pair channels; at the end nothing is left in any queue.",
  "all schedules, portions of bytes, party counts, protocols, messages", "number of interleavings and splittings is unbounded", a(N,"send_router","party_sender","party_receiver","receive_router","Stats::increment")+a("src/protocol/mod.rs","ProtoHandle::send","ProtoHandle::recv"))
p("Reported communication is what was sent",
  "Stats counts, at every party and for every sender, exactly the bytes of the messages (without and with IDs) once all protocols have ended, in every schedule; at any time the count lies between the bytes of the protocols the receiver has finished and those the sender has started. The communication which the benchmark programs print for one repetition (difference of Stats::now after sync and at the end of the repetition) is the communication of that repetition. (The last sentence is false: messages of a faster party that arrive before sync returns are not counted for the repetition, and those of the next sync may be; true as an upper bound up to one message per party.)",
  "all schedules, party counts, protocols", "depends on timing", a("src/lib.rs","Stats::now","Stats::elapsed")+a(N,"Stats::increment","Stats::party","receive_router")+a("src/bin/preproc.rs","benchmark")+a("src/bin/garble.rs","benchmark"))
p("Communication of preproc and garble is a fixed number of bytes",
  "In every schedule over the TCP network, the bytes which each party counts from each other party in preproc are 7 messages with 8 bytes of length each plus (W+7)/8 bytes per field element, with the number of elements given by the batch sizes and the error share of the two parties; the bytes of garble depend only on the circuit's block counts, the parameters and the leaders derived from the IDs, and their sum over all pairs of parties is a closed formula. They do not depend on the schedule, the secrets or the randomness. The same statement bounds message sizes, so that preproc and garble run over TCP as in C81.",
  "all schedules, portions of bytes, circuits, parameters, secrets, randomness", "number of interleavings and of circuits is unbounded", a(PP,"preproc","rand","zero","randbit")+a(GA,"garble","garble_and","garble_xor","garble_inv")+a(CO,"mult","trans","randtrans")+a(N,"Stats::increment","receive_router"))
p("From the circuit file to the garbled circuit",
  "For every Bristol-fashion file of a circuit in topological order, with at least t+2l parties and a field that is large enough: the file is parsed and packed, PreProc::describe and GarbleContext::new succeed, preproc with the described numbers and then garble with the material of preproc succeed, one after the other or in every schedule over the TCP network; afterwards, for each gate of the file, the parties' shares of every table entry are consistent and open to the LPN encryption of the label whose number is the masked gate result for that row. Masks are bits and errors are products of two bits and a scalar. (Labels are those which garble reads, see C57; INV as in C60.)",
  "all circuit files, parameters, randomness, schedules", "all circuits and interleavings; needs all steps together", a(CI,"Circuit::from_bristol_fashion","Circuit::pack")+a(PP,"PreProc::describe","preproc")+a(GA,"GarbleContext::new","garble")+a(N,"receive_router"))
p("The sizes printed by preproc_size",
  "For every circuit and all parameters, preproc_size prints the numbers of shares which PreProc::describe gives, and as total size the number of bytes of the material which preproc makes for one party, serialized with bincode: 8 bytes for each of the five vectors and ceil(W/8) bytes for each share. Serialized material is read back as the same five vectors.",
  "all circuits, parameters, matrices, randomness", "all circuits and matrices; the program measures dummy material instead of the real one", a("src/bin/preproc_size.rs","benchmark")+a(PP,"PreProc::dummy","preproc","PreProcSer"))
p("The benchmark programs over the TCP network",
  "Any number of repetitions of preproc or garble as the benchmark programs run them, with the same IDs in every repetition and a sync before each, as concurrent tasks over the TCP network: in every schedule of all tasks of all parties and networks, with arbitrary portions of bytes written and received, all parties finish all repetitions without panic or deadlock, each repetition has the results of the sequential description, and at the end the statistics of each party are exactly the bytes of that many repetitions, of one sync for each of them, and of the measurements sent at the end.",
  "all circuits, parameters, numbers of repetitions, schedules", "all interleavings of several repetitions with reused IDs; tests run one protocol on one schedule over an in-memory network", a("src/bin/preproc.rs","benchmark")+a("src/bin/garble.rs","benchmark")+a(N,"setup_tcp_network","sync"))
p("The generator of matrices for random bits",
  "gen_binary_supmat.py, which the README tells users to run for other numbers of parties: the parameters it finds serve the number of parties and the ratio asked for and have the largest dimension of all that do; whenever it finds parameters it writes a file; what the reader makes of the file is good for random bits with as many corrupt parties as the program prints.",
  "all numbers of parties and ratios; all fields and BCH codes of the library which are as documented", "there are no tests of the script; the distance of a code is a statement about all combinations of rows", a("scripts/gen_binary_supmat.py","check_rs","find_bch_rs","gen_mat_rs","gen_mat_bch","encode_concat","gen_mat_concat")+a(M,"binary_super_inv_matrix"))
p("The masks of the transformations are hidden",
  "trans hides a share by adding the party's share of the mask random_n and sends the sum to the leader. For every set of at most t corrupt parties, every change of the other parties' shares of random_n is made by a change of the coins of randtrans which alters neither the shares nor the messages which the corrupt parties have, and which is a bijection of the coins; so given what they see the masks of the other parties are uniformly distributed.",
  "all parameters with t + 2l <= n, all batches of transformations, all sets of corrupt parties, all coins", "secrecy is a statement about the distribution of what is seen; a leak leaves all results as they are", a(CO,"RandSharingTransform::new","randtrans","trans")+a(GA,"GarbleContext::new"))
p("garble shows at most t parties nothing about masks, labels and errors",
  "For every set of at most t parties which follow the protocol and every two choices of wire masks, labels and LPN errors, there is a bijection between the random material of the first choice (packed sharings, random sharings, sharings of zero) and that of the second choice under which the material of these parties and all messages which they get in a run of garble are the same; so what they see does not depend on the secrets.",
  "all parameters, circuits, secrets, random material, leaders' coins, sets of at most t parties", "secrecy is a statement about the distribution of everything a set of parties sees over all random material", a(GA,"garble","GarbleContext::new","transform","select","garble_and","garble_xor","garble_inv")+a(CO,"randtrans","trans","mult","reduce_degree"))
p("preproc shows at most t parties nothing about masks, labels and errors",
  "For every set of at most t parties which follow the protocol and every two choices of the secrets of preproc (wire masks, labels, and the bits and scalars of the LPN errors), there is a bijection between the randomness of all parties which leads to the first choice and that which leads to the second choice under which these parties' own randomness and all messages which they get in a run of preproc are the same; and every choice of secrets is the result of equally many choices of the randomness.",
  "all parameters, counts, matrices, secrets, randomness of all parties, sets of at most t parties", "secrecy is a statement about the distribution of everything a set of parties sees over all randomness", a(PP,"preproc","rand","zero","randbit")+a(CO,"mult","reduce_degree"))
p("preproc followed by garble shows at most t parties nothing about masks, labels and errors",
  "For every set of at most t parties which follow the protocols and every two choices of the secrets of preproc, there is a bijection between the randomness of all parties in preproc which leads to the first choice and that which leads to the second choice under which these parties see the same in the run of preproc (own randomness, messages) and in the run of garble with the resulting material (material, messages).",
  "all parameters, matrices, circuits, secrets, randomness of all parties, leaders' coins, sets of at most t parties", "secrecy is a statement about the distribution of everything a set of parties sees over all randomness", a(PP,"preproc","rand","zero","randbit")+a(GA,"garble","transform","garble_and","garble_xor","garble_inv")+a(CO,"randtrans","trans","mult","reduce_degree"))
p("Timing and interleaving over the TCP network show the corrupted parties nothing more than the sequential view",
  "If a set of parties learns nothing about the secrets from its own randomness or material and the messages of a sequential execution of preproc, of garble, or of preproc followed by garble, then it learns nothing when they run as concurrent tasks over the TCP network: under the same bijection of the randomness, in every schedule of tasks, reads and writes of portions of bytes, routers and receivers, each step is possible in both executions or in none, and after it these parties' tasks, queues, buffers and routers and the bytes on their connections are the same, and so are the numbers of bytes on all connections, the statistics, and how far each party is in each protocol. The schedule may be chosen adaptively from all this.",
  "all parameters, circuits, secrets, randomness, sets of parties, schedules, portions of bytes", "secrecy over all interleavings and all randomness", a(N,"send_router","party_sender","party_receiver","receive_router")+a(PP,"preproc")+a(GA,"garble"))
p("The semi-honest communication estimate predicts what the parties count",
  "scripts/communication_estimates.py --semi-honest, given the numbers of input wires, AND gates and XOR gates of a circuit, predicts for the garbling phase and the preprocessing phase the bytes of the field elements which all parties send when garble and preproc run (apart from 8 bytes for the length of each vector and the IDs); with INV gates counted as XOR gates, as the README suggests, it is an upper bound. (False: the script rounds once where the code rounds for each coordinate of a key, so the estimate is too low unless the packing parameter divides the numbers of blocks; an XOR and an INV gate share a block in the estimate, but not in the code.)",
  "all circuits, numbers of parties, thresholds, packing parameters, LPN parameters, schedules", "the estimate is compared with nothing in the repository", a("scripts/communication_estimates.py","ProtoCtr","semihon_protocol")+a(PP,"preproc")+a(GA,"garble"))
p("The shipped subtraction circuit subtracts",
  "data/circ/sub64.txt is accepted by Circuit::from_bristol_fashion, and Circuit::eval of the resulting circuit on the bits (least significant first) of any two 64-bit words x and y returns the bits of x - y modulo 2^64; its gates are in topological order, every wire is driven once and all outputs are driven, so that the circuit can be packed, preprocessed and garbled.",
  "all pairs of 64-bit inputs", "2^128 input pairs; the repository has no test of the circuit's function", a("data/circ/sub64.txt","439 gates")+a(CI,"Circuit::from_bristol_fashion","Circuit::eval"))
p("The shipped AES circuit computes AES-128",
  "data/circ/aes_128.txt is accepted by Circuit::from_bristol_fashion, and Circuit::eval of the resulting circuit on the bits of any key (first input) and any plaintext (second input) returns the bits of the AES-128 encryption of the plaintext as FIPS 197 defines it, where keys and blocks are 128-bit numbers with the first byte most significant and bits are listed least significant first; its gates are in topological order, every wire is driven once and all outputs are driven.",
  "all 2^256 pairs of key and plaintext", "a test vector exercises one of 2^256 inputs; an error in one of the 36663 gates may show for few inputs only", a("data/circ/aes_128.txt","36663 gates")+a(CI,"Circuit::from_bristol_fashion","Circuit::eval"))
p("The shipped SHA-256 circuit computes the compression function",
  "data/circ/sha256.txt is accepted by Circuit::from_bristol_fashion, and Circuit::eval of the resulting circuit on the bits of any 512-bit message block (first input) and any 256-bit hash value (second input) returns the bits of the next hash value as FIPS 180-4 defines it, where blocks and hash values are numbers with the first word most significant and bits are listed least significant first; evaluating it over the blocks of a padded message of any length from the initial hash value gives the SHA-256 digest; its gates are in topological order, every wire is driven once and all outputs are driven.",
  "all 2^768 pairs of block and hash value; messages of any length", "a test vector exercises one of 2^768 inputs; an error in one of the 135073 gates, for instance in a carry, may show for few inputs only", a("data/circ/sha256.txt","135073 gates")+a(CI,"Circuit::from_bristol_fashion","Circuit::eval"))
p("The shipped circuits are garbled for every packing parameter",
  "For each circuit file in data/circ (sub64.txt, aes_128.txt, sha256.txt), every context over GF(2^18) with t + 2l <= n and 2(t+l-1) < n and enough field elements for the wires, all LPN parameters below 2^18, admissible matrices and all randomness: the file is parsed and packed, preproc with the described numbers and then garble with its material end in every schedule over TCP, and the tables contain every gate of the file, garbled. (False: garble panics while drawing protocol IDs, before any message, exactly when l >= 25 for sub64, l = 146 or l >= 193 for AES, l >= 371 for SHA-256.)",
  "all packing parameters, party counts, thresholds, LPN parameters, randomness, schedules", "a test runs one parameter set; the panic for l = 146 has no neighbours", a("data/circ/sub64.txt","circuit")+a("data/circ/aes_128.txt","circuit")+a("data/circ/sha256.txt","circuit")+a(GA,"garble","GarbleContext::new")+a(PP,"preproc","PreProc::describe")+a(PR,"ProtocolIDBuilder"))
p("Garbling a shipped circuit reveals nothing to corrupted parties",
  "For each circuit file in data/circ, every context and parameters as in C97 with a packing parameter for which garble runs, and matrices for which preproc is private (C90): no coalition of at most t parties learns anything about the wire masks, labels and errors from running preproc and garble for the file, neither from the messages it receives nor from what it sees of the network. (False: AES is private exactly for l in {1,2,3,4,5,8,16,25}, SHA-256 exactly for l <= 4; with every other l, including the README's n = 128, t = 31, l = 33, there is a coalition of t >= 2 parties which learns a linear combination of wire masks. sub64 is, with t >= 3 and apart from l = 16 with n = 41, private exactly for l in {1,2,3,4,6,7,8,9,12,13,15,21,24}, and for l = 20 and 23 with all but 8 and 9 numbers of parties.)",
  "all packing parameters, party counts, thresholds t >= 2, coalitions, randomness, schedules", "privacy is a statement about distributions over all randomness; the leak depends on how the gates of the whole circuit are sorted and packed", a("data/circ/sub64.txt","circuit")+a("data/circ/aes_128.txt","circuit")+a("data/circ/sha256.txt","circuit")+a(GA,"garble")+a(CI,"Circuit::pack")+a(CO,"randtrans"))
p("The script's correctness error bounds the probability that a row has too many errors",
  "If preproc runs with matrices as in C90 and randomness of all parties chosen uniformly, the number of nonzero LPN errors in a row of a garbled table (one gate, one row, one slot) is binomially distributed with lpn_mssg_len trials and probability (q-1)/4q, and the probability that there are more errors than the row's code corrects is at most correctness_error(lpn_mssg_len, lpn_key_len, 2) of scripts/gen_lpn_params.py. (False: a row encodes the label and the mask, lpn_key_len + 1 elements, one more than the script assumes; for the default parameters 127 and 555 the probability is above 2^-40, while the script's error is below. The bound holds with lpn_key_len + 1, and with lpn_key_len if the difference is odd.)",
  "all circuits, gates, rows, slots, parameters, fields; uniform randomness of all parties", "the probability of 2^-40 cannot be observed in tests", a("scripts/gen_lpn_params.py","correctness_error")+a(PP,"preproc")+a(GA,"GarbleContext::new","garble")+a("src/bin/garble.rs","lpn-key-len","lpn-mssg-len"))
p("gen_lpn_params.py finds parameters with the wanted security and correctness error",
  "If scripts/gen_lpn_params.py prints parameters N and k with k != -1, then the estimated security of (N, k) is at least the wanted one, and correctness_error(N, k, tau) is at most the wanted one; find_k_correct finds the largest such k for an N; and if longer rows never make the search fail, N is the smallest possible. (False if no security is wanted: with tau = 2, a wanted security of 0 and a wanted error of 2^-40 the result is N = 2, k = 1 with correctness error 7/16. True for a wanted security of at least one bit and tau >= 1.)",
  "all wanted securities, errors, tau and field sizes", "the searches are binary and rely on monotonicity for all arguments; every test uses one set of parameters", a("scripts/gen_lpn_params.py","find_k_correct","find_k_sec","find_k","find_lpn_params"))
p("preproc produces masks, labels and LPN errors with the right distribution",
  "If preproc runs with matrices as in C90 and randomness of all parties chosen uniformly, then the wire masks, wire labels and LPN errors which the parties share are independent, in all slots: each mask is a uniformly random bit, each label element is uniformly random in the field, and each error is uniformly random with probability 2^-lpn_tau and 0 otherwise. (False for lpn_tau != 2, the option --lpn-error-bias of the binaries: debug builds panic, release builds ignore the value and use 2.)",
  "all descriptions, fields, parties, parameters, and all values of masks, labels and errors; uniform randomness of all parties", "a distribution over astronomically many values", a(PP,"preproc","PreProcContext")+a("src/bin/preproc.rs","lpn-error-bias"))
p("What corrupted parties see is independent of the preprocessing material",
  "If preproc and then garble run with matrices as in C90 and uniform randomness, then what a coalition of at most t parties sees (its randomness, its material and all messages it receives) is statistically independent of the wire masks, labels and LPN errors of the honest parties: whatever it has seen, they have the distribution of C101. (False for circuits with a repeated wire in a gate input block, as in C89; for AES it holds exactly for l in {1,2,3,4,5,8,16,25} and for SHA-256 exactly for l <= 4.)",
  "all circuits, coalitions, views, values of the secrets, parameters", "independence is a statement about probabilities over all randomness", a(PP,"preproc")+a(GA,"garble")+a(CO,"randtrans"))
p("The probability that a garbled circuit has a row which cannot be decoded",
  "If preproc runs with matrices as in C90 and uniform randomness, the probability that some row of the garbled tables of a circuit has more than e LPN errors is 1 - (1 - T)^R, where T is the probability that a binomial variable with lpn_mssg_len trials of probability (q-1)/4q exceeds e, and R is the number of rows: four for each AND and XOR gate and two for each INV gate of the circuit, whatever the packing. So it is at most R * correctness_error(lpn_mssg_len, lpn_key_len + 1, 2) for the number of errors that are corrected. For AES with the default parameters 127 and 555 it is above 2^-23, though the error wanted of the script is 2^-40.",
  "all circuits, packing parameters, fields, LPN parameters; uniform randomness of all parties", "the probability is far too small to be observed", a(GA,"garble","GarbleContext::new")+a(PP,"preproc")+a("src/circuit.rs","Circuit::pack")+a("scripts/gen_lpn_params.py","correctness_error"))
p("The number of communication rounds is constant",
  "If local computations take no time and every message takes at most one unit of time, then preproc ends at all parties, with its results, after five units of time, and garble after nine (seven if no gate is an AND gate): whatever the size and the depth of the circuit, the number of parties and the packing are, and whatever the order of deliveries and of the tasks is. If every message takes exactly one unit of time, they do not end earlier.",
  "all circuits, parties, parameters, randomness, and all schedules", "a test measures one schedule and one circuit, and the time it takes depends on the machine", a(PP,"preproc")+a(GA,"garble")+a(CO,"trans","randtrans","mult")+a("src/protocol/mod.rs","ProtoHandle"))
p("The communication per gate does not grow with the number of parties",
  "If the number of parties is at most C times the packing parameter (and, for preproc, C times the numbers of rows of the two super-invertible matrices), then the bytes which all parties together count in preproc and in garble are at most a constant times the number of input wires and gates, plus a term which does not depend on the circuit; the constant depends on C, on the LPN parameters and on the size of a field element, but neither on the number of parties nor on the circuit (with the IDs of the messages, it grows with the length of the IDs). In any case garble costs at least 2(2k+1) field elements times the number of parties divided by the packing parameter for every input wire and gate, so that with a fixed packing parameter the cost per gate grows with the number of parties.",
  "all circuits, numbers of parties, packing parameters, LPN parameters, randomness, and all schedules", "a benchmark measures some circuits and some numbers of parties", a(PP,"preproc")+a(GA,"garble")+a(CO,"trans","randtrans","mult")+a(N,"receive_router","Stats::increment"))
p("The saved file holds the measurements of all parties and the options of the run",
  "With --save, in every schedule, party 0 of the benchmark programs collects the data of all parties and writes one JSON text; a reader of this file gets, for every party in the order of the party IDs and for every repetition in order, the time and the bytes received from each party which this party measured (for garble also the time of the computation before the repetitions), and the options of the run: n, t, l, the path of the circuit, the LPN parameters, the repetitions and the threads. (False for threads: the file has the number of repetitions in its place.)",
  "all measurements below 2^64, options, paths, numbers of parties and repetitions, and all schedules", "the data arrive in any order and mixed with the messages of the repetitions; paths may contain any characters", a("src/bin/preproc.rs","benchmark")+a("src/bin/garble.rs","benchmark")+a(N,"message_from_each_party","receive_router"))
p("The garbled circuit can be evaluated",
  "Whoever holds the parties' garbled tables and, for every input wire, its colour (its value plus its mask) and the label of that number, obtains gate by gate the colour and the label of the output wire: choose the row by the colours of the input wires, open it, subtract the LPN matrix times the sum of the labels, and decode. This succeeds whenever every row has at most e errors with 2e < mssg_len - key_len, and the colours of the output wires are the outputs of the circuit plus their masks. (False: a gate is decrypted to the label and the value instead of the colour, INV gates are evaluated as copies, and the next gate uses other labels.)",
  "all Bristol files, inputs, packing parameters, LPN parameters and randomness", "the repository has no evaluator, so that no test looks at what the tables are for", a(GA,"garble","garble_and","garble_xor","garble_inv"))
p("Parameters with which the protocols are not correct are rejected",
  "If the number of parties, the threshold and the packing parameter are such that multiplication of sharings is not correct, the program stops with an error instead of going on with wrong shares. (False: only t + l <= n is checked, by a panic in PackedSharing::new; for t + l <= n <= 2(t + l - 1) mult returns sharings of something else.)",
  "all numbers of parties, thresholds, packing parameters, sharings and randomness", "no test uses parameters outside of the range for which the protocol is made", a(CO,"mult","reduce_degree")+a("src/sharing.rs","new"))
p("Crashes and broken connections never lead to wrong results",
  "In every execution of preproc and garble, and of any other jobs which succeed when they are executed one after the other and which have suitable protocol IDs, in which at any moments tasks end, processes crash and connections break (with the loss of messages which are under way and of all later ones): no task panics because of what it receives, every protocol run which a party finishes has the result which it has without failures, and a party which gets to the end has its correct part of the material and of the tables. The other parties are not told of a failure, though: a protocol run which one party has not started before its crash is not finished by any party, and they wait forever.",
  "all circuits, parameters, randomness, schedules, and all sets and times of failures", "failures cannot be injected in the tests, and there are infinitely many combinations of failures and schedules", a(N,"send_router","party_sender","party_receiver","receive_router")+a(PR,"ProtoHandle::send","ProtoHandle::recv")+a(PP,"preproc")+a(GA,"garble"))
p("Parties which call a protocol for different numbers of sharings do not get results",
  "The parties take the numbers of sharings from their own command lines and circuit files. If they call rand, zero, randbit, reduce_degree, mult, trans or randtrans for different numbers, each of them stops with an error and none goes on with wrong shares; likewise for a matrix made for another number of parties. (False for single parties: only the total number of received shares is checked, so a party whose number is the average of all goes on with shares which belong to different sharings. True: at least one party stops, so not all parties get a result.)",
  "all numbers of parties and sharings, shares, leaders and randomness", "the tests always call the protocols with the same numbers at all parties", a(PP,"rand","zero","randbit")+a(CO,"reduce_degree","mult","randtrans"))
p("A party which does not follow the protocols cannot disturb the messages of the others",
  "Some parties send anything to anybody at any time. Between two other parties every message of every protocol still arrives once and in order at the right instance; a protocol without leader returns at them what is computed from one message of each party with the right messages of the parties which follow the protocols, and so do the answers of a leader who follows the protocols. Only the leader can give the answer for which reduce_degree and trans wait. (The last part is false: the first message with the protocol ID is taken for the leader's answer, whoever sends it.)",
  "all numbers of parties, sets of deviating parties, instances, messages and schedules", "no test has a party which deviates; the space of messages and schedules is infinite", a(N,"message_from_each_party","party_receiver","receive_router")+a(CO,"reduce_degree","trans","randtrans")+a(PP,"rand","zero","randbit"))
p("A party which sends wrong shares is noticed",
  "If a party sends wrong shares in reduce_degree (also within mult), trans, rand, zero or randbit, or the leader sends wrong answers, some party stops with an error. (False: nothing is checked. Wrong shares change the secrets by a known linear function of the differences: a single wrong share changes every secret of its block, and any party can change any one secret by any amount. Wrong answers of the leader give results which are no sharing. In the dealing protocols an output to which the deviating party contributes is a sharing exactly if what it dealt is one.)",
  "all parameters, secrets, shares, randomness and differences", "the tests only run parties which follow the protocols, and cannot enumerate the deviations", a(CO,"reduce_degree","mult","trans")+a(PP,"rand","zero","randbit"))
p("Connections from elsewhere do not disturb the setup",
  "While party p waits for the connections of the parties p+1, ..., n-1, connections from elsewhere (a port scan, a program which was started twice, an earlier run) do not matter: the setup still gives each party's own connection. (False: the first n-p-1 connections are taken, each announces a number which nobody checks. The setup is right exactly if these announce the numbers p+1, ..., n-1, each once; with one connection from elsewhere before, the setup ends in a panic, or party n-1 is replaced by it; and a connection which announces nothing blocks it forever.)",
  "all numbers of parties, orders of connections and announced numbers", "the tests connect local parties which all announce their own numbers; foreign connections depend on the environment", a(N,"connect_to_peers","setup_tcp_network"))
p("The computation estimate counts the multiplications of the code",
  "The parties together perform n times as many field multiplications as scripts/computation_estimates.py --semi-honest counts for one party: in rand, zero, randbit, mult, preproc and garble, for a circuit with the given numbers of input wires, AND gates and XOR gates. (True for rand, zero and randbit, and for mult and preproc up to the rounding of how many degree reductions each party leads. False for garble: randtrans evaluates two matrices with n rows, the script counts n - t and l of them, so for all keys of length 8 or more and circuits of full blocks the script is too low, for its default parameters and l = 16 by a factor of 2.5 in that step; INV gates, the Lagrange coefficients which trans and the selection compute and RandSharingTransform::new are not in the script at all.)",
  "all parameters, circuits, shares and randomness", "the estimate is compared with nothing in the repository, and the code counts no multiplications", a("scripts/computation_estimates.py","ProtoCtr","semihon_protocol")+a(CO,"reduce_degree","mult","trans","randtrans")+a(PP,"rand","zero","randbit","preproc")+a(GA,"garble"))
p("The security estimate is at most the cost of the attacks it considers",
  "The cost that Guass of scripts/lpn_param.py computes for N queries, keys of length k and t errors is that of inverting a matrix divided by the probability that k queries chosen at random are free of errors, and the cost of Ourparitycheckforq is k + 1 divided by the square of this probability for k + 1 queries. sec_lpn of scripts/gen_lpn_params.py is a number, 0 or more, and at most the logarithm of both costs for the average number of errors; so for the parameters which gen_lpn_params.py prints both attacks cost at least 2^sec, wherever the errors are. The search for short keys relies on longer keys being at least as secure. (False where fewer queries are free of errors than needed: com is 1 and not 0 there, so the costs are finite although the attacks never succeed. False for two errors that longer keys cost more by Guass; from three errors on they do.)",
  "all numbers of queries, key lengths, numbers and positions of errors, field sizes, wanted securities and errors", "there are no tests of the scripts; costs of 2^80 cannot be observed, and the probabilities are over all choices of queries", a("scripts/lpn_param.py","com","Guass","sub_SD_ISDq","min_SD_ISDq","SD_ISD_q","Ourparitycheckforq","analysisforq")+a("scripts/gen_lpn_params.py","sec_lpn","find_lpn_params"))
p("The security estimate is for as many LPN queries as a garbled circuit contains",
  "For each label of a wire, the garbled tables contain at most lpn_mssg_len LPN queries about this label: products of public vectors and the label plus an error, after subtracting what is known to an evaluator who has one label of every other wire and the encoded messages; lpn_mssg_len is the number of queries for which gen_lpn_params.py estimates the security. (False: each read of the wire by a gate contributes lpn_mssg_len queries with errors of their own. The shipped circuits contain wires which are read 4, 8 and 12 times. For AES with the default parameters there are 4440 queries about a label, and the script's estimate for them is below 74 bits, whereas the cost of the attack Guass on 555 queries is at least 80 bits.)",
  "all circuits, packing parameters, wires, labels, LPN parameters and randomness", "security against attacks cannot be tested, and the number of queries depends on the circuit", a(GA,"garble","GarbleContext::new")+a(CI,"Circuit::pack")+a("scripts/gen_lpn_params.py","sec_lpn","find_lpn_params")+a("scripts/lpn_param.py","Guass","analysisforq")+a("data/circ/aes_128.txt","circuit")+a("src/bin/garble.rs","lpn-key-len","lpn-mssg-len"))
p("No LPN matrix is used twice with labels of the same wire",
  "If two gates in the same slot of different blocks read the same wire, they hash different strings and so use different LPN matrices (up to collisions of the hash function). (False: the counters which make the strings different count the reads of a wire in a slot over both inputs, so a gate which reads a wire as its first input and another which reads it as its second input can hash the same string. It happens in aes_128.txt with 16 gates per block. There the labels of the common wire cancel in the difference of two rows; whoever evaluates a circuit garbled in this way finds, for some inputs, the message which belongs to the label of the common wire which they do not have, correcting the errors in which the two rows differ.)",
  "all circuits, packing parameters, wires, LPN parameters, inputs and randomness", "whether matrices repeat depends on the circuit and the packing, and tests of correctness never use the rows which belong to other labels", a(GA,"GarbleContext::new","garble")+a(CI,"Circuit::pack")+a("data/circ/aes_128.txt","circuit"))
p("Every row of a garbled table is encrypted with a uniformly random key",
  "For every gate and every row of its table, the sum of labels with which the row is encrypted is uniformly random over the randomness of preproc: each key has the probability q^-k. (False exactly for the first and the last row of a gate which reads the same wire twice, which the parser accepts: the key is always zero. From the table of an AND gate of this kind both labels of its output wire can be read without any label, in every run. The shipped circuits have no such gates.)",
  "all circuits, gates, rows, parameters, keys and randomness", "the distribution of keys cannot be observed in a run, and garbling such circuits succeeds", a(GA,"garble")+a(PP,"preproc")+a(CI,"Circuit::from_bristol_fashion"))
p("The receiving task passes on exactly the messages whose frames the stream begins with",
  "Whatever bytes arrive on a connection and however they are cut into pieces: the messages which are passed on are exactly those whose frames, as the sending task writes them, the bytes begin with. No message is made of other bytes: each length has only one accepted encoding. The task panics only if the next bytes are no beginning of a frame, and then nothing more is passed on; otherwise the bytes not yet used are the beginning of a frame.",
  "all byte streams, all cuts into pieces, all lists of messages", "tests send what the sending task writes; streams and cuts of arbitrary bytes cannot be enumerated", a(N,"party_receiver","party_sender"))
p("A length announced by a peer cannot take down the party",
  "Whatever a peer sends, the process of the receiving party goes on: a length which is announced has no effect before the message arrives. (False: the buffer is allocated when the length has been read. However much memory can be allocated, at most nine bytes abort the process, at any point between two messages. The process is aborted exactly if, after frames which fit, a length is announced which cannot be allocated. Peers which run the sending task with messages which fit do no harm.)",
  "all byte streams and all limits of what can be allocated, below 2^63-1", "needs bytes which the sending task never writes; no test sends them", a(N,"party_receiver"))
p("The rule of the README for the choice of a matrix gives one which is good for the threshold",
  "If the number of corruptions printed by the script is at most t and the number of honest parties at least n - t, as README.md demands, the matrix gives uniform bits against t corrupt parties. (False: the inequality is the wrong way round. A matrix which is good for T parties is good for all t with t <= T; the rule demands T <= t, and if T is the exact bound, no t other than T is allowed by the rule and secure. The shipped matrix for 128 parties and 31 corruptions may be used with t = 40 by the rule, but 40 parties know the sum of some bits.)",
  "all matrices, numbers of parties and thresholds", "tests of correctness do not depend on the secrecy of the bits", a("README.md","Generate binary super-invertible matrix")+a("scripts/gen_binary_supmat.py","main"))
p("The tasks of the network end exactly when all parties have dropped their handles, without panics and with all messages delivered",
  "Whatever the parties send and ask for, whenever they drop their handles, and however the tasks are scheduled: no task of the network panics; the tasks alone can take only finitely many steps; when none can go on, everything which was sent has arrived in order, also what was sent by parties which have dropped their handles, and all tasks of all parties have ended if and only if all parties have dropped their handles. No receive router ends before that. The loop of the receive router which is meant to answer requests after all connections are closed never answers one.",
  "all numbers of parties, messages, and schedules", "the order in which the tasks of several parties end is up to the scheduler", a(N,"setup_tcp_network","send_router","receive_router","party_sender","party_receiver"))
p("Evaluating the garbled circuit does not reveal the values of the wires",
  "Whoever evaluates the garbled circuit gets the same colours and labels for any other values of the wires, with suitable masks, of which there is exactly one choice for each choice of values. (False: whatever the masks are, the element which follows the label in the opened row of an AND or XOR gate is the value of its output wire, and in that of an INV gate the value of its input wire. True for tables in which the colour follows the label.)",
  "all Bristol files, values, masks, parameters and randomness", "no test evaluates a garbled circuit", a(GA,"garble","garble_and","garble_xor","garble_inv"))
p("The communication of preproc is the same for all parties",
  "In every schedule over the TCP network all parties receive the same number of bytes in preproc. (False: the party with the highest number is the leader for all errors which are left over when the number of errors is divided by the number of parties, and receives 2 * n * B bytes more for each of them, B bytes being the size of an element; with fewer errors than parties it does all the work. All other parties receive the same number of bytes, and all parties do exactly if the number of parties divides the number of errors.)",
  "all schedules, circuits, parameters, randomness", "tests check results, not who is the leader of how many multiplications", a(PP,"preproc"))
p("The estimates for the maliciously secure protocol are consistent with those for the semi-honest one",
  "For the same parameters and circuit, no figure which communication_estimates.py or computation_estimates.py prints for the maliciously secure protocol is below that for the semi-honest protocol, whatever the times of the field operations are; the communication to transform masks and labels is at most, and that to compute plaintexts exactly, lenmac + 1 times as much. The communication figures grow with the numbers of input wires, AND gates and XOR gates, so that it is safe to count cheaper gates as XOR gates; the communication of the verification depends on the number of parties, the field and the repetitions, but not on the circuit; and the communication of the garbling phase is at most linear in the size of the circuit, with a factor that does not depend on the number of parties if that is proportional to the packing parameter.",
  "all parameters and circuits", "the README shows one set of parameters", a("scripts/communication_estimates.py","ProtoCtr","malicious_protocol")+a("scripts/computation_estimates.py","ProtoCtr","malicious_protocol"))
p("The local network delivers everything and its tasks end without panics when all parties have dropped their handles, also if some party sends to a party which does not exist",
  "Whatever the parties of setup_local_network send and ask for, whenever they drop their handles, and however the tasks are scheduled: no task panics; the tasks alone can take only finitely many steps; when none can go on, everything which was sent has arrived in order, and all tasks have ended if and only if all parties have dropped their handles. (True if all messages are for parties which exist. False otherwise: one message of one party to a party which does not exist ends the routing task which all parties share; from then on no message of any party reaches any party, and parties which wait for messages do so forever.)",
  "all numbers of parties, messages, and schedules", "the order in which the tasks of several parties end is up to the scheduler; tests send to parties which exist", a(N,"setup_local_network","receive_router"))
p("Degree reductions and multiplications reveal nothing to at most t parties which do not follow the protocol",
  "At most t parties send what they like to whom they like, decide the order of all steps and deliveries, see all messages between all parties, and choose what to do next depending on this and on their shares of the preprocessing. Any number of runs of reduce_degree and mult, whose inputs are computed in any way from results of earlier runs and from secrets: for any other secrets there is a bijection of the preprocessing under which the parties have the same shares and see the same at all times. With t + 1 parties, one of which is the leader, this is false.",
  "all coalitions, strategies, schedules, secrets, ways of computing inputs, and numbers of runs", "secrecy is a statement about distributions and about all strategies; tests run honest parties", a(CO,"reduce_degree","mult"))
p("Multiplications masked with what cheating dealers have dealt reveal nothing to at most t parties",
  "At most t parties see what the others deal to them in rand and zero, then deal whatever shares they like, the right number to each party (nothing is noticed, C112), and then deviate as in C127 in any number of runs of reduce_degree and mult in which each result of rand and zero is used at most once. For any other secrets there is a bijection of the randomness of all dealers under which these parties know the same and see the same at all times. This holds for all matrices with which t parties do not determine anything about the results, in particular for the one which the programs compute.",
  "all coalitions, dealt shares, strategies, schedules, secrets, and numbers of batches and runs", "secrecy is a statement about distributions and about all strategies; tests run honest dealers", a(PP,"rand","zero")+a(CO,"reduce_degree","mult"))
p("Multiplications and share transformations reveal nothing to at most t deviating parties",
  "At most t parties deviate in any number of runs of reduce_degree, mult and trans, in any order and with inputs computed from earlier results, and in the runs of randtrans which make the masks of trans: there they see what the others send them and then send whatever they like. If t + 2l is at most n, every transformation keeps secrets in their places up to order as C88 requires, and each mask is used once, then for any other secrets there is a bijection of the randomness of all parties under which the deviating parties know the same before and see the same at all times. This includes messages of wrong lengths.",
  "all coalitions, strategies, schedules, secrets, transformations, and numbers and orders of runs", "secrecy is a statement about distributions and about all strategies; tests run honest parties", a(CO,"randtrans","reduce_degree","trans"))
p("From dealing to transformations, at most t parties who deviate everywhere learn nothing",
  "At most t parties deviate in the whole chain of protocols: they deal whatever they like in rand and zero after seeing what is dealt to them, send whatever they like in randtrans after seeing the messages to them, and do whatever they like in any number of runs of reduce_degree, mult and trans which use the results, seeing all messages. If t + 2l is at most n, the transformations are as C88 requires, the matrix is that of the programs and no sharing is used twice, then for any other secrets there is a bijection of the randomness of the dealers under which the deviating parties see the same in the dealing, in randtrans and at all times of the runs. (False if two of them send messages of different wrong lengths in randtrans with the right total, which nobody notices.)",
  "all coalitions, strategies, schedules, secrets, transformations, numbers of runs, and assignments of sharings to uses", "secrecy is a statement about distributions and about all strategies; tests run honest parties", a(PP,"rand","zero")+a(CO,"randtrans","reduce_degree","trans"))
p("garble hides masks, keys and errors from t parties who deviate everywhere",
  "With protocol parameters and material of the sizes which the program computes, sharings dealt in rand and zero with the matrix of the program, and t + 2l at most n: at most t parties who deal whatever they like, send whatever they like in randtrans, and do whatever they like in all runs of trans and mult of garble, seeing all messages of these, learn nothing about the masks, keys and errors of which the parties hold shares. For any others there is a bijection of the dealers' randomness under which the deviating parties see the same. (False if two of them send messages of different wrong lengths with the right total in randtrans.)",
  "all circuits, parameters, coalitions, strategies, schedules, masks, keys, errors and LPN matrices", "secrecy is a statement about distributions and about all strategies; tests run honest parties", a(G,"garble")+a(PP,"rand","zero")+a(CO,"randtrans","trans","mult"))
p("Deviating parties learn nothing even if they interleave dealing, randtrans and the runs as they like",
  "C130 and C131 with all protocols at the same time: at most t parties decide what happens next depending on all they have seen. Messages in rand, zero and randtrans, theirs or those of others, arrive at any time, and the runs of reduce_degree, mult and trans whose masks are there go on in the meantime; so shares which are dealt to one party may depend on what was seen in randtrans and in runs of other parties. Still, for any other secrets there is a bijection of the randomness of the dealers under which they see and do the same at all times. (For messages of the deviating parties with the right numbers of values; false for others, C130.)",
  "all coalitions, strategies, orders of events, secrets, transformations, runs, and for garble all circuits and parameters", "secrecy is a statement about distributions and about all strategies; tests run honest parties in few orders", a(G,"garble")+a(PP,"rand","zero")+a(CO,"randtrans","reduce_degree","trans"))
p("Garbling the shipped circuits leaks nothing to deviating parties",
  "C132 for the files in data/circ: with the parameters of C98 and the matrix which the program uses for dealing, sub64.txt, aes_128.txt and sha256.txt are parsed and packed, and at most t parties which deviate in the dealing of the random sharings and sharings of zero, in randtrans and in all runs of trans and mult of garble, and decide about the order of everything, learn nothing about the wire masks, labels and errors. This holds for AES and SHA-256 with all packing parameters with which parties following the protocols learn nothing (C98), and for sub64.txt with 9 packing parameters.",
  "all coalitions, strategies, orders of events, secrets, tapes, numbers of parties, thresholds, LPN parameters and hash functions", "secrecy is a statement about distributions and about all strategies; the circuits have up to 135841 wires", a(G,"garble")+a(CI,"from_bristol","pack")+a(PP,"rand","zero")+a(CO,"randtrans","reduce_degree","trans"))
p("Sharing and reconstructing with precomputed coefficients agree with PackedSharing",
  "compute_share_coeffs and compute_recon_coeffs give the coefficients of PackedSharing::new with the same degree, number of parties and positions, and share_using_coeffs and recon_using_coeffs with them do the same as share and semihon_recon. With degrees up to n + l - 1 the shares lie on a polynomial of at most this degree with the secrets at their positions. From n shares of a polynomial of degree at most d < n reconstruction gives its values at any positions, also repeated ones or those of shares. Degrees too large for the number of points or too small for the secrets panic, and with coefficients for degrees from n on no n shares are accepted.",
  "all field widths, degrees, numbers of parties, positions, secrets and tapes", "tests use one degree and one set of positions; the protocols use these functions only with degrees n - 1 and t + l - 1", a(S,"compute_share_coeffs","share_using_coeffs","compute_recon_coeffs","recon_using_coeffs","new"))
p("Multiplications in preproc leak nothing to deviating parties and cheating dealers",
  "At most t parties deal anything in rand and zero (each message with the right number of values, see C137), and then deviate in any way in the runs of mult of preproc, where they also see all messages and decide about the order. They learn nothing about the bits which are multiplied, the scalars, the keys and the random sharings for garble: there is a bijection of the other parties' randomness under which they see the same, while the bits are replaced by any others and the scalars, keys and random sharings change by any values. No result of rand or zero is used as a mask twice, or as a mask and as an input or output.",
  "all coalitions of at most t parties, strategies, orders, inputs, tapes, numbers of errors, and parameters", "secrecy is a statement about distributions and about all strategies", a(PP,"preproc","rand","zero")+a(CO,"mult"))
p("All of preproc leaks nothing to deviating parties, with everything running at the same time",
  "rand, zero, randbit and the runs of mult of preproc run at the same time. At most t parties deal anything in rand, zero and randbit (also other values than bits, and shares which do not belong together; but each message with the right number of values, see C137), deviate in any way in mult, and decide at any time what happens next, depending on all they have seen. If the matrices hide the results from t parties (which holds for the matrix which the program computes, and for a file which is good in the sense of C12), they learn nothing: there is a bijection of all randomness under which they see the same at all times, while the secrets of the scalars, keys and random sharings change by any values, and those of the masks and of the factors of the errors by any bits.",
  "all coalitions of at most t parties, adaptive strategies, orders, tapes, numbers of errors, matrices and parameters", "secrecy is a statement about distributions and about all strategies; here strategies depend on messages which themselves depend on when others are sent", a(PP,"preproc","rand","zero","randbit")+a(CO,"mult"))
p("Messages with a wrong number of values in rand, zero and randbit are noticed",
  "If a deviating party sends another number of values than there are batches in rand, zero or randbit, the recipient stops; so what deviating parties learn does not depend on whether they may do so. (False: only the total over all parties is checked. A single such party is noticed, but two can compensate each other with any number of values, and the shares which parties between them have dealt are then taken for other ones. With 5 parties, threshold 2 and one secret per sharing, two parties which send one party two and no values in rand learn a linear combination of the secrets of three values whose degree is reduced, although the masks are sharings dealt by all parties.)",
  "all numbers of parties, batches, matrices and messages; the leak for all inputs and all polynomials of the other dealers", "tests have no deviating parties, and a leak is a statement about all tapes", a(PP,"rand","zero","randbit")+a(CO,"reduce_degree"))
import sys
open('/verif/properties.jsonl','w').write("".join(json.dumps(x)+"\n" for x in P))
print(len(P))
