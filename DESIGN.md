# Design of the Lean model of scalable_garbling

The model lives in `lean/Verif/`. `/repo` was read as text only; nothing of it was built or run, with
one exception which should not have happened: while C115 was written, a modified scratch copy of `scripts/lpn_param.py` was run once to see
how large its estimates are. The copy was deleted. No statement or number in this directory rests on its output; the numbers of C100, C115 and C116
are proved in Lean from the model of the script.

## Trusted base

* The Lean 4 kernel, and the axioms `propext`, `Classical.choice`, `Quot.sound` (every theorem's
  dependencies are a subset of these; no axioms of our own, no `sorry`, `native_decide`, `bv_decide`).
* Mathlib (definitions: `Polynomial`, `Field`, `List`, `Finset`, ...).
* That the Lean definitions transcribe the Rust/C text they cite. Each definition carries the file and
  line numbers it models, and says where it simplifies.
* That the string literals in `lean/Verif/Data/*Text*.lean` are the contents of the files in `data/circ`, and the matrices in
  `BinsupData` those of `data/binsup_mat` (`tools/gen_circuits.py --check` and `tools/gen_binsup.py` regenerate them).
* Not modelled, treated as parameters or assumptions:
  * `seahash`, `sha2::Sha256`, `ChaCha`/`StdRng`: arbitrary functions / arbitrary random tapes.
  * `tokio`, TCP and the kernel: reliable FIFO byte streams and FIFO unbounded queues, arbitrary
    task interleaving. `rayon`: data parallel maps equal sequential maps.
  * `bincode` (fixed-int little endian `u64` length prefix) and `vint64`: their published format is
    modelled in Lean and the round trip is proved about that model.
  * `ndarray`: arrays are lists (row-major); reshapes are modelled on the flat list.
  * machine integers are `Nat`, except where wrap-around or overflow matters (`u32`/`int` in the
    field tables, the byte counters of protocol IDs, `usize` subtraction), which is modelled explicitly.
  * `json` (writing and parsing): modelled in Lean after RFC 8259 as far as the programs use it, with the round trip proved about
    that model; which bytes of a string are written as `\u00XX` is left open.
  * running time, memory exhaustion (except in C120), argument parsing and the standard output of the `bin/` programs, the file system,
    plotting/cluster scripts.

## Conventions

* A Rust panic / out-of-bounds access / C undefined behaviour is `none` (or an explicit error), never
  a default value. Functions whose panic-freedom is not at stake in a theorem state the precondition.
* Vectors are `List F`, matrices `List (List F)` (list of rows), `dot` is the sum of the products.
* Upper layers are generic in a `CodeField F` (a field of characteristic two with an injective
  conversion from integers below `order`); `GF W` built from the log tables is an instance, so each
  generic theorem holds of the actual field.
* Randomness is an explicit tape (the list of values drawn, in drawing order).
* `X.lean` holds a model, `XSpec.lean` the independent specification, `XLemmas.lean` helper lemmas,
  `Props/*.lean` the property theorems, each followed by an `example` with a concrete instance.
* A property of `properties.jsonl` which the code violates has a theorem with the negation for a concrete
  witness (`..._false`) and a `..._partial` theorem with the part that does hold.

## Modules

| module | code | content |
|---|---|---|
| `GFTables`, `GF` | `extern/galois/galois.c`, `src/math/galois/mod.rs` | log tables as bounded arrays, mul/div with bounds checks, encode/decode, statics |
| `GFPoly`, `GFPrimitive` | | independent specification of the field; primitivity certificates |
| `MathMod` | `src/math/mod.rs` | lagrange_coeffs, rs_gen_mat, binary matrix reader, Combination |
| `Sharing`, `SharingSpec` | `src/sharing.rs` | PackedSharing |
| `Circuit`, `CircuitSpec` | `src/circuit.rs` | parser, eval, pack |
| `ProtoId` | `src/protocol/mod.rs` | ProtocolIDBuilder |
| `Network`, `NetworkSpec` | `src/protocol/network.rs` | framing, router, gather, local network, statistics, connections |
| `Core`, `CoreSpec` | `src/protocol/core.rs` | reduce_degree, mult, trans, randtrans as compositions of the parties' steps |
| `Preproc`, `PreprocSpec` | `src/protocol/preproc.rs` | rand, zero, randbit, preproc, counts, serde |
| `Garble`, `GarbleSpec` | `src/protocol/garble.rs` | select, transforms, gate tables, LPN lookup, garble |
| `BinsupData`, `BinsupSpec`, `BinsupRank`, `BinsupWeight` | `data/binsup_mat/*.txt` | the shipped matrices, what they should do, rank and distribution from weights |
| `Async`, `AsyncSpec` | `src/protocol/network.rs`, tasks of `tokio` | parties as state machines, per-pair FIFO channels, jobs running concurrently and depending on each other; sequential execution and `ScheduleFree` as specification |
| `AsyncProto` | `sync`, `src/protocol/core.rs`, `src/protocol/preproc.rs` | the protocols as programs of these machines (which messages, in which order, with which bytes) |
| `AsyncPreproc` | `src/protocol/preproc.rs:335-460` | `preproc` as the jobs it spawns, with what one party computes between them |
| `AsyncGarble` | `src/protocol/garble.rs:132-353`, `699-786` | `garble` as the jobs it spawns, with what one party computes between them |
| `AsyncBench` | `src/bin/preproc.rs:111-191`, `src/bin/garble.rs:111-187` | the loop of the benchmark programs: `sync`, the jobs of one repetition, and the exchange of measurements |
| `AsyncExit` | `src/bin/preproc.rs:171-219`, `src/bin/garble.rs:167-215` | processes which end, with the loss of messages which have not been written |
| `AsyncFault` | `src/protocol/network.rs:276-375`, `src/protocol/mod.rs:84-95` | tasks which end and connections which break, at any time (more than what can happen in the code: a crash is a set of such steps) |
| `AsyncByz` | `src/protocol/network.rs:187-210`, `347-374` | parties which send whatever they like; every connection belongs to the party which it announced (see C113 for what happens otherwise) |
| `ByzPrivacy`, `ByzPrivacyLemmas` | `core.rs`, `network.rs` | strategies of parties which deviate, and what they see; statements and lemmas of C127 |
| `ByzDeal`, `ByzDealLemmas` | `preproc.rs`, `core.rs` | dealers who deviate; statements and lemmas of C128 |
| `ByzMask`, `ByzTrans`, `ByzTransLemmas`, `ByzSwap` | `core.rs` | runs masked once; deviating parties in `trans` and `randtrans`; statements and lemmas of C129 |
| `ByzPipe`, `ByzPipeLemmas` | `preproc.rs`, `core.rs` | dealing, `randtrans` and runs in a row with deviating parties; statements and lemmas of C130 |
| `ByzGarble`, `ByzGarbleLemmas`, `ByzGarbleLink`, `ByzGarbleSizes` | `garble.rs` | the runs of `trans` and `mult` of `garble` with deviating parties; statements and lemmas of C131 |
| `ByzMix`, `ByzMixLemmas` | `preproc.rs`, `core.rs` | dealing, `randtrans` and runs at the same time with deviating parties; statements and lemmas of C132 |
| `ByzShippedSpec` | `garble.rs`, `data/circ` | statement of C133 |
| `ByzPre`, `ByzPreLemmas` | `preproc.rs` | runs of `mult` in `preproc` with deviating parties and cheating dealers (C135) |
| `ByzPreMix`, `ByzPreMixLemmas` | `preproc.rs` | all of `preproc` at the same time, with deviating parties (C136) |
| `DealLenSpec`, `DealLenLemmas` | `preproc.rs`, `core.rs` | messages with other numbers of values in `rand` (C137) |
| `TamperSpec` | – | messages of `reduce_degree` with differences added, the effect on the secrets |
| `Connect` | `src/protocol/network.rs:66-105`, `212-274` | connecting: what the incoming connections announce, in their order; connecting to the lower parties succeeds at some time |
| `Count` | `src/sharing.rs`, `src/math/mod.rs`, `src/protocol/core.rs`, `preproc.rs`, `garble.rs` (the lines of the models it mirrors) | field multiplications: one for each product of elements in vector and matrix products; not those in Lagrange coefficients, inverses and `RandSharingTransform::new` |
| `CompEst` | `scripts/computation_estimates.py:43-195`, `237-254`, `354-421` | the multiplications of the semi-honest estimate; exact division instead of floating point numbers |
| `MalEst`, `MalEstLemmas` | `communication_estimates.py`, `computation_estimates.py` | the malicious estimates and the additions, for C125 |
| `AsyncNet` | `src/protocol/network.rs:187-310`, `src/protocol/mod.rs:72-96` | the parties over the TCP network: every task of the network is a process of its own, bytes are written and arrive in arbitrary portions, `recv` is a request and an answer; connections exist from the start, the transport does not fail |
| `AsyncNetSpec` | - | what is sent in a sequential execution, sizes, schedules of everything |
| `AsyncCommSpec` | - | who sends how many field elements to whom in each protocol run; the closed formula for `garble` |
| `EndToEndSpec` | - | what it means that the tables contain a gate of the circuit file |
| `PreprocSize` | `src/bin/preproc_size.rs`, `src/protocol/preproc.rs:462-499` | the printed report; bincode of the material |
| `AsyncNetBenchSpec` | specification | bytes of the repetitions and of the measurements |
| `GenSup` | `scripts/gen_binary_supmat.py` | numbers unbounded except `2**k_bin`; `galois` and `numpy` as parameters |
| `GenSupSpec` | specification | parameters which fit, codes with a distance |
| `PrivacySpec` | specification | coins, coalitions, what is hidden |
| `PrivacyGarbleSpec` | specification | worlds with given secrets, views, `GarblePrivate` |
| `PrivacyPreSpec` | specification | secrets of `preproc`, views, `PreprocPrivate`, `RunPrivate` |
| `PrivacyNetSpec` | specification | indistinguishable states and executions over the network, `PreprocNetPrivate`, `GarbleNetPrivate`, `RunNetPrivate` |
| `Estimates` | `scripts/communication_estimates.py` | `Params`, `ProtoCtr`, `semihon_protocol` |
| `EstimatesSpec` | specification | messages and field elements of `garble` and `preproc` |
| `EstimatesLemmas` | lemmas | rounded-up quotients, closed form of the estimate, blocks of a packed circuit |
| `Cut`, `CutLemmas` | | gates as numbers, printed text, certificates of what a circuit computes, with the checks for one gate and their soundness |
| `KernelRfl` | | tactic for equalities which only the kernel compares |
| `ShippedSpec` | specification | what it means that a circuit file computes a function |
| `Sub64`, `Sub64Lemmas`, `Data/Sub64*` | `data/circ/sub64.txt` | text and gates of the circuit, its certificate, values of the signals |
| `AesSpec`, `AesSpecLemmas` | specification | AES-128 after FIPS 197; recurrences of round keys and state per byte |
| `Aes`, `AesLemmas`, `AesMain`, `Data/Aes*` | `data/circ/aes_128.txt` | text and gates of the circuit, its certificate, values of the signals, checks of all gates |
| `ShaSpec`, `ShaSpecLemmas` | specification | SHA-256 after FIPS 180-4; recurrences of schedule and working variables |
| `Sha`, `ShaLemmas`, `ShaMain`, `Data/Sha*` | `data/circ/sha256.txt` | text and gates of the circuit, its certificate, values of the signals, checks of all gates |
| `ShippedCount`, `ShippedIds`, `ShippedRunSpec`, `ShippedRunLemmas` | `data/circ`, `garble.rs` | numbers of gates of the shipped circuits, the IDs `garble` draws for them, statement and lemmas of C97 |
| `SortLemmas`, `NetSort`, `NetSortLemmas`, `NetSortTail`, `NetSortHide`, `ShippedSort`, `Data/*Sort*`, `ShippedHide`, `ShippedPrivacySpec`, `ShippedPrivacyLemmas` | `circuit.rs`, `data/circ` | certificates for the order in which the gates of the shipped circuits are packed, their checks, statement and lemmas of C98 |
| `LpnScript` | `scripts/gen_lpn_params.py` | exact rationals for floats; the estimate of the security of LPN (`scripts/lpn_param.py`) is an argument of the searches, for which the properties put `secLpn` of `LpnParam` |
| `LpnParam`, `PyFloat` | `scripts/lpn_param.py:16-41`, `312-406`, `440-445`, `493-501`, `scripts/gen_lpn_params.py:12-17` | exact reals for decimals and floats, with infinities and NaN; exceptions are `none`; the functions for fields with two elements and for rings are not modelled |
| `LpnParamSpec`, `LpnParamLemmas`, `LpnCostLemmas` | `scripts/lpn_param.py` | statements and lemmas of C115 |
| `QuerySpec`, `QueryLemmas` | `garble.rs`, `circuit.rs` | statements and lemmas of C116 |
| `ReuseSpec`, `ReuseLemmas`, `ReuseCheck`, `ReuseAes` | `garble.rs`, `circuit.rs`, `data/circ/aes_128.txt` | statements and lemmas of C117 |
| `Shutdown`, `ShutdownLemmas` | `network.rs` | the tasks of the network from start to end, for C122 |
| `RandTransSmall` | `core.rs` | `randtrans` with any number of parties, for C71 |
| `LocalShutdown`, `LocalShutdownLemmas` | `network.rs` | the tasks of the local network from start to end, for C126 |
| `FrameSpec`, `FrameLemmas` | `network.rs` | statements and lemmas of C119, C120: arbitrary bytes, and a limit of what can be allocated |
| `ParseSpec`, `ParseLemmas` | `circuit.rs` | the exact grammar of accepted files, statements and lemmas of C67, C68 |
| `RowKeySpec`, `RowKeyLemmas`, `RowKeyShipped` | `garble.rs`, `preproc.rs`, `data/circ` | statements and lemmas of C118 |
| `LpnErrSpec`, `BinomLemmas`, `TapeCount`, `LpnErrLemmas`, `LpnSearchLemmas` | `preproc.rs`, `garble.rs`, `scripts/gen_lpn_params.py` | statements and lemmas of C99 and C100 |
| `NoiseSpec`, `NoiseLemmas`, `IndepSpec`, `IndepLemmas` | `preproc.rs`, `garble.rs` | the bias `lpn_tau`; statements and lemmas of C101 and C102 |
| `CircErrSpec`, `CircErrLemmas` | `garble.rs`, `circuit.rs` | statements and lemmas of C103 |
| `AsyncRoundSpec`, `AsyncRoundLemmas`, `AsyncRoundLevels` | `preproc.rs`, `garble.rs`, `core.rs` | statements and lemmas of C104 |
| `ScaleLemmas` | `circuit.rs`, `preproc.rs`, `garble.rs` | lemmas of C105 |
| `Json` | `src/bin/*.rs` | the part of the crate `json` which the programs use: writing and parsing |
| `JsonLemmas` | `src/bin/*.rs` | the round trip |
| `BenchFile` | `src/bin/preproc.rs`, `src/bin/garble.rs` | the data of a party, and the file which party 0 writes |
| `BenchFileSpec` | `src/bin/preproc.rs`, `src/bin/garble.rs` | vocabulary of C106 |
| `EvalSpec` | `src/garble.rs` | the evaluator, and the tables as they should be (C107) |
| `EvalLemmas` | `src/garble.rs` | opening and decrypting a row |
| `LabelChance` | `src/garble.rs`, `src/preproc.rs` | how likely a label is the same where it is written and where it is read (C57) |
| `PrivacyShift`, `PrivacyRun`, `PrivacyPair`, `PrivacyLocal`, `PrivacyLink`, `PrivacyParams`, `PrivacyAbsorb`, `PrivacyWorld`, `PrivacyLeak`, `PrivacyPad`, `PrivacyCase` | lemmas | the bijection of C89: which changes of the coins a coalition does not notice, layer by layer; and what it notices |
| `GFSlice` | lemmas | arithmetic in GF(2^18) for all elements at once, with one number per bit |
| `PrivacyNetLemmas`, `PrivacyNetSim`, `PrivacyNetRun`, `PrivacyNetSeq`, `PrivacyNetJobs` | lemmas | twin-state simulation of the network, and its instances for `preproc` and `garble` |
| `PreDeal`, `PreIndex`, `PreLoop`, `PreRun`, `PreView`, `PreRetape`, `PreMove`, `PreLift`, `PreCase` | lemmas | the jobs of `preproc` with polynomials, and the bijection of the randomness |
| `AsyncRounds`, `AsyncSeq`, `AsyncPreprocLemmas`, `AsyncGarbleLemmas`, `AsyncProgress`, `AsyncBarrier` | | one protocol round equals its sequential description; plan, progress, barrier lemmas |
| `*Lemmas`, `GarbleRows`, `GarbleExist` | | helper lemmas |
| `Props/*` | | the property theorems |

## Properties

For each property: what is modelled and how it is proved. "negation" marks properties that the code
violates (see `properties.jsonl` for the reason).

| id | model | proof |
|---|---|---|
| C01 | table construction loop with bounded arrays | the hard-coded polynomials are primitive: order of x by Lucas-style certificates (factorisation of 2^W-1, kernel-computed powers), lifted to the loop by induction |
| C02 | log/antilog lookup | discrete logs + C01; spec is polynomial product mod polynomial in (ZMod 2)[X] |
| C03 | XOR, mul, div | transport from the quotient ring |
| C04 | From<u32> with bounds check | case split; negation for v >= ORDER |
| C05 | byte encoder/decoder | base-256 digits; negation for 8 not dividing W |
| C06 | bincode Vec format | induction over the list |
| C07 | process-wide state machine of the statics | negation by a two-call history; partial: single-width histories by invariant |
| C08 | lagrange_coeffs on lists | Mathlib's Lagrange interpolation |
| C09, C10 | rs_gen_mat | root counting of polynomials |
| C11 | line/token reader | induction; negation by a ragged file |
| C12 | the seven data files as Lean constants (`BinsupData`, generated by `tools/gen_binsup.py`), read by the model of the reader | each is a Reed-Solomon code with binary inner code (compared entry by entry in the kernel), so weights are bounded by root counting and a table of the inner code; lifted to all subsets and fields by duality; for files with at most 14 outputs all weights, as digits of one number (`BinsupWeight`); negation by low-weight combinations |
| C13 | from_instance/apply | list induction |
| C14-C19 | PackedSharing | C08 |
| C20 | position functions | injectivity of the integer conversion |
| C21 | character-level parser | print/parse round trip; negation for two outputs |
| C22 | eval | induction over gate list |
| C23-C25 | pack | permutation lemmas of sorting/chunking |
| C26-C28 | builder | base-256 counter invariant; negations by witnesses |
| C29, C30 | list of the IDs used by garble/preproc | prefix-freeness |
| C31 | byte encoder and decoder of frames | induction over the messages |
| C32-C34 | router step function over arbitrary event lists | refinement to "k-th request gets k-th message" |
| C35 | gather loop | induction over arrivals |
| C36 | queue network with arbitrary scheduler | invariant |
| C37, C45 | `Async`: every interleaving of local steps and deliveries, any number of concurrent jobs | inductive invariant against the planned messages, progress, termination measure; the barrier needs no plan (counting argument per sender) |
| C38 | counters | induction |
| C39 | dial/accept model | permutation argument |
| C40-C44 | synchronous description of the protocols | polynomial identities on top of C08/C14 |
| C46 | leader | arbitrary hash |
| C47, C48, C51, C52 | preprocessing protocols | linearity, C09 |
| C49, C50 | counting model of drain calls | arithmetic |
| C53 | flat array reshape | negation; partial for what is preserved |
| C54 | map construction by repeated insertion | induction |
| C55-C57 | select/transform on polynomials | degree count; negation for labels (reshape) |
| C58-C61 | gate evaluation on secrets via C40/C41 | algebra over {0,1}; negations for INV and the colour bit |
| C62, C63 | row encryption | linearity, C10; negation for a gate reading one wire twice |
| C64, C65 | compute_lookup | counter invariant |
| C66 | shapes | list lengths |
| C67, C68 | parser, eval; partial: files with the faults in `C67_files_partial`, well-shaped inputs | the accepted files are described by a grammar (`LooseFile`, `C67_exact`, both directions); eval is eval on inputs cut or filled to shape (`C68_fit`); negation by witnesses |
| C69 | pack | stable sort |
| C70 | messages to the leader of trans | bijection between masks and messages |
| C71 | randtrans without t + 2l <= n, exactly (`RandTransSmall`) | the parties' interpolation reduces the polynomials behind the messages modulo the product of the X - i; for n < t + 2l a random sharing of degree n - l makes this visible |
| C72 | router with an abandoned request | negation; invariant for the rest |
| C73 | both network models | equality of deliveries; negation for long IDs |
| C74 | sync as state machines | deadlocked schedule as witness |
| C75 | keys and matrices of all gates | linear independence from the read counters |
| C76 | row contents | from C58-C60 by case analysis on bits |
| C77 | `preproc` as 3 + 2n concurrent jobs, party-local computations between them | C45 and C29; induction over the leaders relates the party-local computations to the sequential description |
| C78 | `garble` as concurrent jobs (batches of `randtrans`, `trans`, one or two multiplications per gate), party-local computations between them | C45 and C29; inductions over batches and gates relate the party-local computations to the sequential description |
| C79 | the loop of the benchmark programs as one list of jobs: repetition `r` depends on `sync` number `r`, which depends on all earlier jobs; IDs repeat | C45 for the whole list: two jobs with the same ID are separated by a job without leader, which no party finishes before all parties have started it (C37) |
| C80 | additional steps: a process ends when its own jobs are finished, and loses what has not been written; with `--save` party 0 ends in the step in which it has all measurements | negation: no party but 0 is ever sent "done" (invariant over all schedules), and a concrete schedule for the leader of a degree reduction; positive: executions without losses are executions of C45 |
| C81 | `AsyncNet` | simulation: each state of the network corresponds to one of `Async`, where bytes under way are decoded to the messages they stand for (C31) and the router is the queue of C33; then C45; termination by a lexicographic measure |
| C82 | counters of `receive_router` in `AsyncNet` | the counters are the bytes of the messages which have arrived in the corresponding state of `Async`, split by job; negation by a concrete schedule |
| C83 | `AsyncNet` with the jobs of `AsyncPreproc`, `AsyncGarble` | for each protocol run the lengths of all messages follow from the success of its round and the lengths of its local inputs; summed over the jobs, with the lengths of the IDs from C28; then C82 |
| C84 | `Circuit`, `Preproc`, `Garble`, `AsyncNet` together | C21 gives a well-formed circuit, C23 finds the slot of each gate of the file, C50 and C51 give the hypotheses of C62 and C66, C83 the executions over TCP |
| C85 | `PreprocSize`: the program on dummy material; material as bytes | lengths of the vectors from C52 and from the tables behind C50; negation by the half adder |
| C86 | the loop of C79 in the network model of C81 | C81/C82 on the jobs of the whole program; the bytes by summation over the iterations, with C83 for each |
| C87 | the script function by function; field and BCH code of the library are parameters with their documented properties | invariant of the two loops; distance of Reed-Solomon codes and of concatenated codes; the reader of C11 and the rank argument of C12 |
| C88 | messages of `randtrans` to a set of at most t parties as functions of the coins (random and zero sharings as polynomials) | explicit shift of the coins by interpolation through the parties of the coalition; for the converse a party's messages determine its result |
| C89 | view of a party: material and the messages of all jobs of `garble` (sequential form, which C78 gives for every schedule); random material as polynomials | the jobs are put into layers; each layer's values are shifted by coins which only this layer uses (C88 for `trans`, zero and random sharings for `mult`), giving a triangular bijection; for one input with repeated wires, the surplus is absorbed by the free coins of another block if its weight for the parties in question is not 0; for the negation the view determines a share and with it a mask |
| C90 | view of a party: its randomness and the messages of all jobs of `preproc` (sequential form, which C77 gives for every schedule); randomness as tapes | dealt polynomials are shifted by a right inverse of the matrix which is zero at the coalition, so that the outputs change by polynomials which vanish at the coalition; the masks of the two multiplications are shifted so that what is opened stays the same; negation: a coalition which knows a sum of outputs |
| C91 | views of C90 and C89, where `garble` uses the material which `preproc` returns (also more than counted) | the bijection of the random material of C89 is lifted to the randomness of `preproc` with the one of C90 |
| C92 | executions of `AsyncNet` (tasks, routers, connections with portions of bytes) from the start state; indistinguishability of two states for a set of parties compares all of their own state and lengths elsewhere | a twin-state simulation: both executions make the same step; messages to or from corrupted parties are equal, others have equal lengths; the messages of the sequential executions give what is sent; with failures: the same steps are left out in both executions |
| C93 | `scripts/communication_estimates.py --semi-honest` method by method (exact quotients instead of floating point); the formula of C83 for what the parties count | closed form of the estimate; the difference is in rounded-up quotients, compared by general lemmas; combined with C83 (all schedules) and C25 (numbers of blocks) |
| C94 | the text of `data/circ/sub64.txt`; parser and `eval` as in C21, C22 | the text is printed from gate codes (kernel computation), so C21 gives the circuit; a certificate claims for each wire a truth table over two input bits and the borrow of a position; checked for every gate by the kernel, soundness proved once for all inputs; borrow recurrence from `BitVec.carry_succ` |
| C95 | the text of `data/circ/aes_128.txt`; FIPS 197 as specification (`AesSpec`) | as C94: a certificate claims for each wire a linear combination of key, plaintext and S-box output bits, or a truth table over the 256 inputs of one S-box; checked for each of the 36663 gates by the kernel; sound by induction over rounds and round keys, with the S-box tables compared with the field inverse and affine map for all 256 bytes |
| C96 | the text of `data/circ/sha256.txt`; FIPS 180-4 as specification (`ShaSpec`) | as C95: a certificate claims for each wire an exclusive or of bits of words and carries, or a truth table over the inputs of one position of an addition, `Ch` or `Maj`; checked for each of the 135073 gates by the kernel; sound because the words satisfy the recurrences of schedule and working variables and the carries those of binary addition |
| C97 | the gates of the three shipped files, counted by kind; the models of C84 and C30 | gate counts by kernel reduction over the gate tables, the numbers of blocks from C25, the requested numbers of IDs compared with the powers of 256 for every l; from the first l with a single batch on by monotonicity; then C84 |
| C98 | the order in which `pack` sorts the gates of the three shipped files; the models of C89, C91, C92 | certificates for fan-outs and order, checked locally by the kernel for every gate and every gate input; stability of the sort makes the order unique; last blocks then checked for every l; for sub64 and l in {7, 9, 15, 20, 21, 23} the weight of the last XOR block is computed for all numbers of parties at once (`GFSlice`); C91/C92 for the private l, `C91_run_private_false` with an explicit coalition for the others |
| C99 | `correctness_error` of `scripts/gen_lpn_params.py` over exact rationals; the randomness of `preproc` (C50, C90) | all randomness is counted by its secrets (C90: equally many for all secrets), secrets are independent choices per slot, so the count is binomial; monotonicity in the probability by counting; distance of the code exactly by a polynomial with known roots; numbers for the defaults evaluated by the kernel as integers |
| C100 | the three binary searches of `scripts/gen_lpn_params.py`, with the estimate of the security of `scripts/lpn_param.py` | invariants of the searches by induction; the correctness error is monotone in `k` because fewer errors are corrected |
| C101 | `preproc` with the assertion on `lpn_tau`; randomness of all parties counted | all randomness is counted by its secrets (C90), masks, labels and errors are functions of independent secrets in each slot, so the ratio is a product over the slots |
| C102 | views of C88 and C89 as events over the randomness of `preproc` | bijections between fibres give equal cardinalities and, conversely, equal cardinalities of finite fibres give bijections; the secrets are uniform, so equal fibres are the same as independence |
| C103 | the errors used by all rows of all gates (C57), slots that are used | the rows use different errors (indices are injective), so they fail independently (counting functions on a product); the packed gates unpack to the gates of the circuit (C23), which gives the number of rows; Bernoulli's inequality for the bounds |
| C104 | the asynchronous executions of C77 and C78, cut into rounds: the messages under way at the start of a round are delivered in it, and the tasks go on until they wait | by induction over the rounds and the jobs: which messages have been sent and received after `k` rounds (upper bound), and which can have arrived at all (lower bound); levels of the jobs |
| C105 | the bytes counted by the receivers as in C83, as functions of the numbers of input wires and gates of the circuit before packing | the numbers of blocks of C93, and inequalities for the rounded quotients |
| C106 | the benchmark programs with `--save` as in C80; the JSON texts as lists of bytes, written and parsed; partial: the threads are wrong (`C106_threads_false`) | parsing what was written gives the value back, by induction over the value; the counter of the last exchange as in C45 |
| C107 | an evaluator (not in the repository) as a relation on colours and labels; the tables of C84; partial: disagreements 7, 8, 9 prevent the evaluation (`C107_false`) | a row minus the LPN mask is a codeword plus the errors, decoded uniquely by C10; `C107_intended` by induction over the gates in topological order; that a label is the one which the next gate uses has probability `q^-(k-1)` at most (`C57_probability_le`) |
| C108 | `mult` and `PackedSharing::new` as in C41, C14, without bounds on the parameters; partial: not rejected (`C108_mult_false`) | interpolation through the products of the shares; for the negation two polynomials such that each party has a zero of one of them |
| C109 | executions as in C45, C77, C78 with additional steps: a task ends, a connection breaks and loses messages | simulation: for the parties it is an execution without failures in which tasks and messages are slow; then C45; for the waiting: a job is finished only when all parties have started it (invariant); over the TCP network (`FailNet`): any steps are not taken any more, C81 |
| C110 | the receiving ends of the protocols as in C45, with different numbers of sharings at the parties; partial: single parties may go on (`C110_mixed_false`) | only the total length is compared; if all parties accept then the sum is n times each number, so they are equal; the leader's computation succeeds for all values by interpolation |
| C111 | executions as in C45 in which the parties of a set may send any message at any time (`AsyncByz`); partial: the leader's answer is accepted from anybody (`C111_forge_false`) | invariant: per pair and ID, sent = received ++ waiting ++ under way; what a gathering party has is the head of what was sent; the negation by a run from any state in which the instance has not started |
| C112 | the protocols of `Core` and `Preproc` with changed messages (`TamperSpec`); partial: nothing is noticed (`C112_undetected_false`, `C112_leader_false`) | the differences are values of a polynomial of degree below n, which the leader adds to the one it reconstructs; Lagrange basis polynomials have no zeros at the positions of the secrets; two polynomials of low degree which agree often are equal |
| C113 | `connect_to_peers` and the check in `setup_tcp_network` as a function of the sequence of incoming connections and what they announce (`Connect`); partial: foreign connections are taken (`C113_stray_false`, `C113_silent_false`) | induction over the connections; n-p-1 announced numbers cover p+1, ..., n-1 exactly if they are a permutation |
| C114 | the models of `Core`, `Preproc` and `Garble` with a counter of multiplications (`Count`), the script (`CompEst`); partial: the estimate for `garble` is too low (`C114_garble_estimate_false`) | each counted function computes the same as the model and counts the closed form: induction over lists and gates, with the sizes of all matrices; arithmetic |
| C115 | the part of `scripts/lpn_param.py` which `gen_lpn_params.py` uses (`LpnParam`), with exact reals, NaN and exceptions (`PyFloat`); partial: `com` is 1 outside of its range (`C115_gauss_false`), and longer keys can cost less for two errors (`C115_gauss_mono_false`) | `com` is a binomial coefficient (products), counting of error-free subsets, invariants of the loops (every cost is a number or NaN, and at least a bound); a correctness error below 2^-(tau+1) leaves room for the attacks by the mean of the binomial distribution |
| C116 | `garble` (`C62`), packing, the script (`LpnParam`); partial: wires which are read more than once (`C116_estimate_false`) | the rows of C62 with the known label and the message subtracted; packing permutes the gates, so the number of reads is that of the circuit; fifth powers of the costs are compared by the kernel |
| C117 | the strings which are hashed (`Lpn`, C64), packing of AES (`AesSort`), tables (C84, `EvalSpec`); partial: wires which are read on both sides (`C117_false`) | injectivity of the strings per side; the blocks and counters of the two AES gates are computed by the kernel from the sorted packing; labels cancel in the difference of two rows; unique decoding (C10), and counting of sets with small intersections (Cauchy's inequality) for lists |
| C118 | keys (`preproc`, C101), tables (C84), parser; partial: gates which read a wire twice (`C118_zero`, `C118_false`) | the secrets of `preproc` are uniform (C101), and an equation for each entry of the key has the probability 1/q (induction); 2 = 0; a check of all gates of the shipped circuits by the kernel |
| C119 | `party_receiver` on arbitrary bytes (`recvFrame` of `Network`, `FrameSpec`) | the decoder accepts only the canonical encoding of a length; strong induction over the length of the stream |
| C120 | `party_receiver` with a limit of what can be allocated (`recvMem`); partial: messages which fit (`C120_false`) | strong induction over the length of the stream; a header which announces 2^63-1 bytes |
| C121 | the rule in `README.md`, matrices as in C12, C87; partial: the opposite inequality (`C121_false`) | monotony; the exact bound of C12 |
| C122 | tasks, channels and streams of `setup_tcp_network` with their ends (`Shutdown`); not: broken connections (C109), abandoned requests (C72) | invariant over all schedules (`DownInv`: each task which has ended had nothing more to do and all before it have ended), measure of the work left |
| C123 | evaluation as in C107; partial: tables as they should be (`C123_false`) | from C107 |
| C124 | bytes of `preproc` as in C83; partial: all parties but the last (`C124_false`) | sum of the formula of C83 |
| C125 | `malicious_protocol` of both scripts and the additions of the second (`MalEst`); integers for numpy's 64-bit integers | closed forms of all figures, monotone in the counts |
| C126 | tasks and channels of `setup_local_network` with their ends (`LocalShutdown`); not: abandoned requests (C72); partial: messages for parties which exist (`C126_delivered_false`) | invariant over all schedules (`LocalInv`), measure of the work left, and an invariant for messages to unknown parties (`Bad`) |
| C127 | executions of C111 with strategies which see everything but inner states and results of the other parties (`ByzPrivacy`); the shares for masking come from a correct `preproc` (C83, C90) | relation between two executions: same messages, results which differ by values of a polynomial (`SysRel`); the coins of each run absorb the difference of its inputs (`absorb`), by recursion over the runs; for t + 1 parties an interpolated polynomial which vanishes on their shares |
| C128 | `dealRound` with arbitrary shares of deviating dealers (`ByzDeal`), then C127; dealing is finished before the first run starts, and messages between the other parties in `rand` and `zero` are not seen; each deviating dealer gives every party the right number of shares (a party checks only the total of what it gets, messages of different wrong lengths with the right total are not covered, and for these the claim is false, see C137) | the errors of the masks are functions of what the deviating parties know (`dealtFor_eq`); bijections of the masks are lifted to the dealers with a right inverse of the matrix which is zero for the deviating parties (`toward`, `deal_lift`) |
| C129 | runs of `rdProto` and `transProto` in one list (`mkJobs`), masks of `trans` from the model of `randtrans` with arbitrary messages of the deviating parties (`ByzTrans`); preprocessing is correct here (C128 is about cheating dealers), `randtrans` is finished before the first run starts, and the messages of the deviating parties all have the right length, or have a wrong total length: the receiver checks only the total. For other lengths the property is false (`C129_private_false`, `ByzSwap`) | one scheme for all runs which are masked once (`Masked`, `ByzMask`); masks are moved through the coins of `randtrans` as in C88, and what the deviating parties send adds an error determined by what they know (`rt_wrong`) |
| C130 | the models of C128 and C129 in a row (`ByzPipe`): what is dealt is used in `randtrans` and in the runs, and each of the three stages of the attack depends on all that was seen before; all dealing is finished before `randtrans`, and that before the runs, whereas the programs interleave independent calls (see C132); the lengths of the messages in `randtrans` are as in C129 | messages of `randtrans` depend linearly on the sharings (`rtTo_add`), so that errors of dealers are errors of masks which the deviating parties know (`pipe_got`); then `C129_errors`, and its bijections are lifted to the dealers (`deal_lift`) |
| C131 | the jobs of `garble` (model of C103) as runs of C130 (`ByzGarble.garbleRuns`), with the sharings which each uses (`garbleUses`); the tables which parties compute from the results are not messages; the dealing precedes `randtrans`, and that the other runs (without this: C132); lengths of messages in `randtrans` as in C129; incomplete blocks of gate inputs without a wire twice | no sharing is used twice (`uses_ok`), the transformations are those of C88 (`positions_ok`), then C130; `C131_jobs` relates the runs to the jobs one by one, `C131_inputs` follows the sizes through the circuit (`run_input`) |
| C132 | the protocols of C130 in one system (`ByzMix`): the history of actions determines which messages have arrived, which masks parties have, and the state of the runs; one run of `rand` and one of `zero`; messages with wrong numbers of values are left out; the steps of a party inside `rand`, `zero` and `randtrans` are not modelled one by one, only what must have arrived before it can send | if nothing is learned with any fixed sequence of actions, nothing is learned with a strategy (`adaptive`: the bijection for the sequence which is played); for fixed actions what a party uses when it may start is what it has in the attack of C130 with the same messages (`got_now`, `sys_eq`) |
| C133 | as C132 and C98 (`ByzShippedSpec.FileSecret`); the secrets of which the parties have shares when `garble` starts are arbitrary | C132 applied to the packed circuits; that blocks which are not full have no wire twice is the check of C98 |
| C134 | the models of the four functions in `Sharing`; `d + 1` in `u32` does not overflow | Lagrange interpolation at the points used (`lagrangeCoeffs_mulVec`); found by an edit of `computeReconCoeffs` which changed nothing for degree `n - 1`, the only one which the protocols use |
| C135 | `ByzPre`: dealing as in C131, then the runs of `mult` of `preproc` with strategies as in C130; leaders' batches, slots and positions as in `preproc` | the positions used are distinct (`preUses_ok`), so masks are independent of inputs; each message in `mult` is hidden by its own mask |
| C136 | `ByzPreMix`: a state with the messages of `rand`, `zero` and `randbit` which have arrived and the runs of `mult`; a party begins with `mult` when it has all three results; strategies are functions of all that has been seen | induction on the number of steps (`adaptive_with`), with C135 and the bijection of C90 for `randbit`, which do not depend on what deviating parties deal |
| C137 | `dealFinish` (the model of what a recipient does); for the leak `DealLenSpec`: what parties 2 and 4 send in `rand`, and the messages to the leader of `reduce_degree` | the total of the lengths; for the leak the shares of the dealer between the two parties cancel for one recipient: polynomials of degree 2 satisfy `ρ(0) + ρ(1) + ρ(2) + ρ(3) = 0`, and the weights at which they appear in what is seen become equal |

## Disagreements between code and expectation

Found while proving; each has a theorem `..._false`.

1. `GF::from(u32)` accepts values outside the field (C04), `decode` yields values outside the field for widths
   which are not a multiple of 8 (C05), and the process-wide tables break with a second width (C07).
2. Ragged matrix files are accepted (C11).
3. The parser reverses the order of several outputs (C21), drops surplus gate inputs (C67), and `eval` accepts inputs
   of the wrong shape (C68).
4. `ProtocolIDBuilder::new(_, max)` allocates too few bytes when `max` is a power of 256 (C27), wraps silently (C28), and
   `garble` can therefore run out of IDs or panic (C30).
5. The router answers concurrent `recv`s for one ID in the order in which the requests arrive (C34) and panics after an
   abandoned one (C72). IDs longer than 255 bytes kill a TCP sender (C73).
6. Preprocessing material written to disk loses its shape (C53).
7. `garble` re-shapes the key array where it should transpose it, so gates get labels of other wires (C57,
   `src/protocol/garble.rs` 179-183).
8. `garble_inv` selects the label of the un-negated value (C60, C76).
9. The last plaintext entry of a row is the clear value of the wire, not its colour bit (C61).
10. A gate which reads a wire twice has two rows with the zero key (C63).
11. `randtrans` needs t + 2l <= n, which nothing checks (C71).
12. Repeating `sync` with one ID can deadlock (C74).
13. Six of the seven shipped matrices for `randbit` do not tolerate the number of corrupt parties in their name (C12). With
    the parameters of the README (16 parties, threshold 5, `n16_t5.txt`) the parties 0, 4, 11, 12, 13 know the xor of the random
    bits 0 and 4 of each batch. `scripts/gen_binary_supmat.py` (`gen_mat_bch`) extends the BCH code by a column of ones
    where the extended code needs the parity of each row.
14. With `--save` all parties but party 0 hang at the end (C80): party 0 hands "done" to the network and returns from
    `benchmark` without waiting; `block_on` on the current-thread runtime returns, and the runtime is dropped with the tasks which would
    have written the message. `run.sh` only waits for party 0, so this is not noticed. Without `--save` the last answers of a
    leader can be lost in the same way.
15. The communication which the benchmark programs report for a repetition depends on the schedule (C82): `Stats::now` is
    taken when `sync` returns, and by then a faster party's messages of the repetition may have been counted; on the other hand
    its next `sync` may be counted at the end of the repetition.
16. `preproc_size` prints the size of dummy material, which is smaller than the material of `preproc` (C85): `preproc` hands on the rest of
    the last batch of random and of zero shares (`rand_shares`, `zero_shares` are not truncated, the masks are).
17. `gen_binary_supmat.py` overstates the number of corrupt parties (C87): it appends a column of ones to the BCH code and counts
    the distance one larger, but only a parity bit does that; this is the reason for the bad files of C12. It also fails an
    assertion for some arguments (`check_rs` admits `n_rs = 2^k_bin`, `gen_mat_rs` does not), for example for 128 parties and
    ratio 4. `2**k_bin` wraps around for `k_bin >= 63`, which rules out such codes silently.
18. `randtrans` uses the same random values as secrets of the mask `random_n` at the old positions and of `random` at the new
    positions, padded to `l` values in both cases (`src/protocol/core.rs` 208-290). If a transformation has m < l new and
    o /= m old positions, the padding overlaps with shares: party i's share of `random` is party (m + i - o)'s share of
    `random_n` (C88). A corrupt party together with the leader thus learns the share of an honest party. In `garble` this is
    the case for the inputs of a gate block which is not full and reads a wire twice; with the shipped circuits it happens in `sub64`
    for l = 5, 11, 16, 32, 64, 128, in `aes_128` for l = 11, 32, 64, 128, and in `sha256` for l = 5, 11, 16, 32, 64, 128.
19. In `garble` the overlap of item 18 is a leak of the wire masks (C89): if the leader of the transformation of a gate input and
    the party of the overlap are corrupt, `t` corrupt parties together have `t + 1` shares of the masks of a block, so they learn
    a linear combination of its masks. Without such gate inputs `garble` is perfectly private against `t` parties.
    The leak is proved for every such gate input (`LeakyInput`) whose wires come from full blocks, or from blocks whose leaders
    are corrupt, too, and for which the party of the overlap is within the padding.
20. Since the shipped matrices leak (C12, item on `data/binsup_mat`), `preproc` is not private against `t` parties with them (C90).
    This holds for the very example of `README.md:90-101`: with 16 parties, threshold 5 and `n16_t5.txt`, the parties 0, 4, 11, 12
    and 13 know the sum of two secret bits (masks or error bits) in each slot of each batch. With `n128_t31.txt`, or `n16_t5.txt`
    and threshold 4, it is perfectly private.
21. `scripts/communication_estimates.py --semi-honest` (C93) packs the `2K+1` coordinates of all blocks together into batches of `l`
    random transformations, whereas `garble` uses a batch of `2K+1` for each `l` blocks (`src/protocol/garble.rs`,
    `src/protocol/preproc.rs` 236-241), so the estimate is too low unless `l` divides the numbers of blocks. Counting INV
    gates as XOR gates (`README.md:143-144`) is no upper bound either: XOR and INV gates are packed separately by the code. The
    script's table of default dimensions has entries for (256, 63) and (512, 127), for which there are no matrices in
    `data/binsup_mat`.
22. The shipped circuits run out of protocol IDs (C97, a consequence of item 4): `garble` panics for `sub64.txt` when the packing
    parameter is 25 or more, for `aes_128.txt` when it is 146, or 193 or more, and for `sha256.txt` when it is 371 or more. The
    parameters of the README's estimates (n = 128, t = 31, l = 33) make `sub64.txt` panic.
23. The leak of item 19 occurs with the shipped circuits (C98): garbling `aes_128.txt` is private exactly for the packing parameters 1, 2, 3,
    4, 5, 8, 16 and 25, garbling `sha256.txt` exactly for those up to 4 (of those with which they are garbled at all, item 22). With the
    parameters of the README's estimates (n = 128, t = 31, l = 33) both leak; with those of its example (l = 3) they do not. `sub64.txt`
    leaks for 5, 10, 11, 14, 16, 17, 18, 19 and 22, and for 20 and 23 with 8 and 9 certain numbers of parties (the smallest one 32335); with the
    other packing parameters below 25, and with 20 and 23 for all other numbers of parties, it is private.
24. `scripts/gen_lpn_params.py` computes the correctness error for codes with as many message symbols as the LPN key is long
    (`correctness_error`, lines 6-9), but a row encodes one symbol more, the mask (`src/protocol/garble.rs:89-90`). If `lpn_mssg_len - lpn_key_len`
    is even, one error less than the script assumes can be corrected (C99). For the defaults of the binaries (127 and 555) the probability
    of a row with more errors than can be corrected is about 2^-39.4, not at most 2^-40; rows of 556 elements would suffice.
25. `find_k_correct` in the same script never checks the key length 1 from which it starts, and never returns -1, although its caller tests
    for that (C100): with a wanted security of 0 bits, tau = 2 and an error of 2^-40 it recommends N = 2 and k = 1, for which the error is
    7/16. With a wanted security of one bit or more the result is as wanted.
26. The option `--lpn-error-bias` of the binaries (`lpn_tau`) has no effect (C101): `preproc` always uses two random bits per error
    (`src/protocol/preproc.rs:335-461`). Debug builds panic if the value is not 2 (lines 344-345), release builds use 2.
27. The file which the benchmark programs write with `--save` has the number of repetitions in the place of the number of threads
    (C106; `threads: opts.reps` in `src/bin/preproc.rs:166` and `src/bin/garble.rs:162`).
28. Nothing checks `2(t + l - 1) < n`, without which `mult` returns sharings of wrong values without any error (C108).
29. A party which gets messages of wrong lengths goes on if only the total length is right (C110).
30. `reduce_degree` and `trans` take the first message with their ID for the leader's answer, whoever sends it (C111).
31. Wrong shares are not noticed (C112); the code is for parties which follow the protocols.
32. While connecting, the numbers which the other sides announce are not checked (C113).
33. `computation_estimates.py` counts `n - t` and `l` rows for the two matrices of `randtrans`, the code multiplies with all `n` rows of both (C114).
34. `com(n, m)` of `scripts/lpn_param.py` is 1 for `m` outside of 0 to `n`, where there is no subset (C115). For printed parameters this does not matter.
35. `gen_lpn_params.py` estimates the security for `lpn_mssg_len` queries, but each read of a wire by a gate gives `lpn_mssg_len` queries about the
    label of the wire which the evaluator does not have (C116). In `aes_128.txt` a wire is read 8 times: with the default parameters there are 4440
    queries, for which the script itself would estimate less than 74 bits instead of 80.
36. The same LPN matrix is used for two gates which read the same wire, one as first and one as second input, if the counters agree (C117). This
    happens in `aes_128.txt` with 16 gates per block, and makes the label of the common wire cancel. C64 and C75 are about gates which read a wire on
    the same side, and about which matrices are independent.
37. A gate which reads the same wire twice is accepted by the parser, but in characteristic 2 the first and the last row of its table are encrypted with the
    key zero; for an AND gate both labels of the output wire can be read by everyone (C118). The shipped circuits have no such gates.
38. `party_receiver` allocates as many bytes as a peer announces before any of them arrives (C120): a length of 2^63 or more panics, and one which cannot
    be allocated aborts the process. The only case in which memory is modelled.
39. `README.md` (lines 73 to 77) demands that the number of corruptions printed by `gen_binary_supmat.py` is *at most* `t`; needed is that it is at
    *least* `t` (C121).
40. The second loop of `receive_router` (`network.rs:421-438`) is dead code (C122): the first one ends only when no more requests can come. Its panic
    "Illegal protocol ID" cannot occur, and messages which nobody asked for are dropped silently.
41. Because of 9, an evaluator gets the values of the wires whose rows it can open in the clear (C123).
42. `preproc` gives all remaining errors to the last leader instead of one each to several leaders (C124).
43. In the local network a message to a party which does not exist stops the communication of all parties, not only that of its sender (C126).
44. `randtrans` checks only the total number of values which arrive (`core.rs:345-353`), not the number in each message. Two parties, one of which sends more and the
    other less, move the values of all parties between them. With half a message more the masks of degree `t + l - 1` are taken for those of degree `n - 1`, and
    `trans` reveals more than the sum of the secrets and a mask (C129).
45. `rand`, `zero` and `randbit`, too, check only the total number of values (`preproc.rs:64-69`). Two parties which compensate each other move the shares dealt by the
    parties between them, for recipients of their choice, and the results no longer mask what is multiplied: with 5 parties two of them learn a linear combination of
    three secrets (C137). So the secrecy against deviating parties of C128 and C130 to C136 holds only for messages with the right number of values.
