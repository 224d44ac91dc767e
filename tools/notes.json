{
 "C04": "True below ORDER (C04_from_u32_partial); false for larger arguments: C04_from_u32_false.",
 "C05": "Round trip proved; the claim that decoding only yields values in range is false for widths not a multiple of 8 (C05_decode_in_range_false).",
 "C07": "Works as stated for one width per process (C07_single_width_partial); the other theorems are counterexamples for several widths and for init after a failure.",
 "C11": "Rectangular files are read exactly and malformed characters rejected; the claim that ragged files are rejected is false (C11_reject_ragged_false), C11_accept_partial says what is accepted.",
 "C27": "The documented bound is honoured exactly when it is not a power of 256 (C27_enough_partial); counterexample C27_enough_false.",
 "C28": "False (C28_exhausted_false): the counter wraps and IDs repeat; C28_exhausted_partial gives the exact periodic behaviour.",
 "C30": "preproc never runs out; garble does (C30_garble_false_*); C30_garble_partial is the exact condition.",
 "C21": "Everything except the order of several outputs (C21_parse_partial); the order is reversed: C21_output_order_false. C21_printed_is_file shows every description has a file.",
 "C67": "C67_exact: exactly which files are accepted, and as which circuit; C67_files_partial, C67_rejected_partial: which files and lines are rejected; false for surplus inputs: C67_arity_false.",
 "C68": {
  "status": "partial",
  "note": "C68_fit: what eval does with inputs of any shape; false: C68_false (no shape is rejected), C68_missing_inputs_false; well-shaped inputs: C22_eval."
 },
 "C71": {
  "status": "partial",
  "note": "C71_iff: true exactly with t + 2l <= n or l = 1; C71_general_false: for all other parameters, whatever the field, there is a batch of two transformations with uncorrelated results, without a panic (C71_succeeds); C71_single_partial: a batch with one transformation is always right; C71_bound_needed: a concrete run."
 },
 "C40": "About the sequential composition of the parties' steps; C45 lifts it to every schedule and leader.",
 "C34": "False (C34_concurrent_false); C34_sequential_partial and C33_own_id say what happens to requests.",
 "C72": "False (C72_abandoned_false: the router panics); C72_unaffected_partial: harmless if no such message arrives.",
 "C73": {
  "status": "partial",
  "note": "False for long IDs (C73_long_id_false); for IDs up to 255 bytes both networks deliver exactly what was sent (C36)."
 },
 "C31": "Length prefix, ID length byte and payload modelled byte by byte; C31_fragmented covers arbitrary fragmentation of the TCP stream.",
 "C36": "Every scheduling of the forwarding tasks; TCP itself is assumed to deliver bytes in order.",
 "C48": "Bijection between honest tapes and outputs for every choice of n-t honest parties, for rand and zero with the Vandermonde matrix of the binaries. randbit uses matrices from data files, see C12.",
 "C50": "The bounds needed are those of the multiplication protocol (2(t+l-1) < n) and matrices with one column per party.",
 "C53": "False (C53_roundtrip_false characterises when the shape survives); C53_entries_partial says exactly what comes back.",
 "C49": "C49_consumed: garble takes exactly the described amounts from the front of each list; C49_exact: with exactly these amounts nothing is left and it never fails.",
 "C57": "False (C57_labels_false: for every circuit with at least two blocks there are keys for which a gate gets a wrong label); C57_labels_partial says exactly which entries arrive. C57_probability: how likely it is that a whole label arrives, exactly; C57_probability_le: at most q^-(k-1), for labels of k elements.",
 "C60": "False (C60_inv_false, for every run and every INV gate); C60_inv_partial gives the rows as they are.",
 "C61": "False (C61_colour_false, for every run and row of a gate with output mask 1); C61_colour_partial: the last entry is the cleartext value.",
 "C62": "C62_rows: contents of the rows for all gates; C62_recon: what reconstruction gives; C62_decode: unique decoding below half the distance.",
 "C63": "False (C63_masked_false: any gate reading a wire twice in a slot); C63_masked_partial: for different wires and distinct labels the key has no zero entry.",
 "C76": "AND and XOR: C76_colours_partial; false for every INV gate: C76_colours_false.",
 "C45": "C45_schedules is for any set of concurrent jobs whose sequential execution succeeds; the other theorems instantiate it with the protocols (sequential descriptions as used by C40-C44, C47).",
 "C37": "Also for an ID used several times by one party after another call; nothing assumed about other jobs.",
 "C74": "False for two consecutive calls with one ID and three parties (C74_repeat_false); true if consecutive calls use different IDs (C74_repeat_partial).",
 "C12": "False for six of the seven shipped files (C12_*_false, witnesses: sets of parties which know a sum of outputs); for each of them C12_*_partial gives a smaller number of corrupt parties for which it is true. True for n128_t31 (C12_n128_t31). The bounds are exact for n16_t5, n128_t31 (39, C12_n128_t31_exact) and n256_t89 (79). The cause is the column of ones in scripts/gen_binary_supmat.py.",
 "C79": "C79_loop is for any repeated set of jobs with a leaderless job in each repetition; C79_preproc and C79_garble are the programs. Party 0 receives its own done in the model (in the code nobody receives it).",
 "C80": "C80_save_false: with --save no other party ever gets past the last exchange, in every schedule. C80_exit_false: without --save messages of the last protocol may be lost (witness: degree reduction with 7 parties). C80_exit_partial: true if processes only end when their messages have been written.",
 "C81": "C81_tcp: all schedules of parties and network tasks; C81_refines: simulation by the per-pair channels of C45; C81_quiet: nothing is left in the network. Connections exist from the start (C39); errors of the transport are not modelled.",
 "C82": "C82_bounds and C82_total: the counters; C82_repetition_false: a schedule with two parties in which a repetition is reported without communication from the other; C82_repetition_partial: upper bound.",
 "C83": "C83_preproc: results and exact per-pair byte counts of preproc in every schedule over TCP; C83_garble: the same for garble, by patterns; C83_garble_total and C83_garble_bytes: closed formula for all pairs; C83_ids: lengths of the IDs.",
 "C84": "C84_sequential: file -> parse -> pack -> describe -> preproc -> garble, each gate of the file garbled; C84_tcp: the same in every schedule of all tasks over the TCP network. Hypothesis: the IDs can be drawn (C30 gives the exact condition). The key of a row is the sum of the labels as garble reads them (C57).",
 "C85": "C85_report: the printed numbers and size in closed form; C85_bytes: byte-level round trip of the material. False for the real material: preproc keeps the rest of the last batches of random and zero shares (C85_size_false: 369 instead of 367 bytes); C85_material_partial: the difference is exactly that rest, less than two batches; C85_material_iff_partial: when the size is right.",
 "C86": "C86_loop for arbitrary jobs; C86_preproc and C86_garble for the two programs, for each pair of parties and (garble) for all together in closed form.",
 "C87": "C87_params: soundness and optimality of the parameters; C87_concat: distance of the concatenated code, up to the reader. False as stated: C87_script_false (the column of ones does not raise the distance; the README's own example for 16 parties), C87_assert_false (no file for 128 parties, ratio 4). True instead: C87_script_partial, C87_assert_partial; C87_parity and C87_script_fixed show the repair.",
 "C88": "False as stated: C88_overlap, C88_share_leak, C88_masks_false (the shares of the masks at new and old positions are the same random values shifted by newPos.length - oldPos.length if there are fewer than l new positions). C88_masks_partial: hidden if each transformation has as many old as new positions, or l new positions; C88_masks_iff: and only then.",
 "C89": "False as stated: C89_garble_private_false (a gate input block which is not full and reads one wire repeatedly shows t corrupt parties, among them the leader, something about the masks). C89_garble_private_partial: holds for all circuits without a repeated wire in the gate input blocks which are not full, and for circuits with one such block if the masks of another block hide what is seen too much (PackedCircuit.Hides); single executions with C78's sequential form, coins of the leaders fixed.",
 "C90": "False as stated: C90_preproc_private_false (with a matrix which lets t parties compute a sum of outputs they learn the sum of the corresponding secret bits), C90_bad_file for all files of the repository but n128_t31.txt, C90_readme_false for the README's example (16 parties, threshold 5, n16_t5.txt). C90_preproc_private_partial: holds for all matrices from which t parties learn nothing, C90_good_file for the good file and the computed matrix; C90_secrets_uniform: then the secrets are uniform.",
 "C91": "False as stated: C91_matrix_false (matrices of C90), C91_run_private_false (circuits of C89, whatever the matrices). C91_run_private_partial: holds for matrices from which t parties learn nothing and circuits without a repeated wire in the gate input blocks which are not full, or hidden ones (PackedCircuit.Hides).",
 "C92": "C92_preproc, C92_garble, C92_run: the sequential notions (C90, C89, C91) imply those over the network; C92_adaptive: schedules which depend on what happens; C92_preproc_private, C92_run_private: combined with C90 and C91. C92_failures, C92_failures_adaptive, C92_garble_failures: the same when tasks end and connections break at any time, also if the corrupted parties choose when.",
 "C93": "Full claim false: C93_rounding_false, C93_inv_false, C93_inv_preproc_false. C93_exact_partial, C93_garble_partial, C93_preproc_partial: without INV gates and with divisible numbers of blocks the estimate is exact, in every schedule over the network; C93_garble_bounds, C93_preproc_bound: without INV gates the estimate is never too high, and for garble too low by at most 4(2K+1) elements per pair of parties; C93_inv_partial: when INV counted as XOR gives an upper bound.",
 "C94": "The text of the file is embedded as string literals (tools/gen_circuits.py --check compares them with the repository); a certificate (truth tables per position) is checked by the kernel for every gate and is sound for all inputs.",
 "C95": "The specification follows FIPS 197 (field inverse and affine map, not a table) and is checked against the standard's example. The text of the file is embedded as string literals (tools/gen_circuits.py --check compares them with the repository).",
 "C96": "The specification follows FIPS 180-4 and is checked against the digest of 'abc'; the constants are checked to be the fractional parts of roots of primes. The text of the file is embedded as string literals (tools/gen_circuits.py --check compares them with the repository).",
 "C97": "The set of packing parameters is exact: the partial theorems prove success for all l outside it, the _false theorems prove the panic for all l in it. The parameters of the README (n = 16, t = 5, l = 3) are instantiated for all three files.",
 "C98": "For AES and SHA-256 the set of private packing parameters is exact (C98_aes_iff, C98_sha_iff), for at least two corrupted parties; for sub64 the set of private pairs of packing parameter and number of parties is exact, for at least three corrupted parties, with the exception of l = 16 and n = 41, which is not settled (C98_sub64_iff).",
 "C99": "Exact distribution (C99_binomial), exact number of errors that are corrected (C99_radius); bound with lpn_key_len + 1, and with lpn_key_len for odd differences (C99_correctness_partial); the default parameters miss the bound (C99_default_false). Floating point of the script replaced by exact rationals; all parties honest.",
 "C100": "As stated for a wanted security of at least one bit and tau >= 1, with the estimate of the script itself (C100_params_partial), and such parameters are found, for example, for 7 bits (C100_found); false if no security is wanted (C100_params_false). Exact rationals and reals for floats.",
 "C101": "Exact joint distribution for lpn_tau = 2 (C101_distribution_partial); for every other value debug builds panic and the distribution of release builds is a different one (C101_tau_false). All parties honest.",
 "C102": "Bijections between the randomness (C91) and independence are equivalent (C102_iff); the posterior distribution of masks, labels and errors is the one of C101 (C102_posterior); for circuits as in C91 (C102_independent_partial), not for leaky ones (C102_independent_false); AES and SHA-256 exactly (C102_aes_iff, C102_sha_iff).",
 "C103": "Exactly (C103_rows), as a bound (C103_bound), and for AES with the defaults (C103_default). Exact rationals for floats; all parties honest.",
 "C104": "Upper bounds for every schedule, existence of the executions in lock step, and lower bounds for all of them: C104_preproc and C104_garble (jobs of C77 and C78).",
 "C105": "Upper bounds for preproc and garble and the lower bound for garble, in every schedule (C83): C105_preproc and C105_garble.",
 "C106": "C106_file_partial: in every complete schedule party 0 writes the file, with everything but the number of threads; C106_preproc_data and C106_garble_data: what the data of a party hold; C106_roundtrip: writing and parsing JSON; C106_threads_false: the number of threads in the file is wrong whenever it differs from the number of repetitions.",
 "C107": "C107_gate_partial: what an evaluator gets from each gate of the tables which garble produces, in every run; C107_false: this is the colour only for one of the two values of the mask, and for INV it is not the negation; C107_intended: with tables which differ from those only in what C57, C60 and C61 found, the evaluation of the whole circuit succeeds and is right.",
 "C108": "C108_checked: exactly the parameters with t + l > n are rejected; C108_result: what mult computes for all others; C108_mult_iff: it multiplies exactly if 2(t + l - 1) < n; C108_mult_false: otherwise there are nonzero secrets for which the result is 0, whatever the randomness is, and nothing panics.",
 "C109": "C109_safe for arbitrary jobs, C109_preproc and C109_garble for the programs; C109_waits and C109_crash: without a party nobody finishes, and nobody is told; C109_lost: nothing arrives over a broken connection. C109_net, C109_net_crash, C109_net_cut: the same over the TCP network, where every task of the network may end, too, and connections break in the middle of messages.",
 "C110": "C110_deal_iff, C110_leader_iff, C110_trans_leader_iff, C110_randtrans_iff: exactly which lengths a party accepts; C110_deal_agree, C110_reduce_degree_agree, C110_trans_agree: all parties get a result exactly if all have the same number; C110_matrix: a matrix for another number of parties stops everybody; C110_mixed_false: a single party may go on with a wrong result.",
 "C111": "C111_intact: messages between parties which follow the protocols; C111_gather: results of protocols without leader; C111_leader: answers of a leader who follows the protocols; C111_forge_false: anybody can give the leader's answer; C111_reduce_degree_false: in reduce_degree this gives any wished result. Different instances have different IDs.",
 "C112": "C112_undetected_false: all parties return, and the results are a sharing of the shifted secrets, and C112_trans_undetected_false: the same in trans, where the shift passes through the transformation; C112_every_secret, C112_chosen: what can be reached; C112_leader_false: a leader who changes answers of at most n - t - l parties; C112_deal_iff: dealing. The claim is false; what holds instead is exact.",
 "C113": "C113_setup_iff: exactly when the setup gives a connection for each party; C113_stray_false: one connection from elsewhere; C113_silent_false: one which announces nothing. A number of n or more panics in the accepting task.",
 "C114": "C114_rand, C114_zero, C114_randbit: exact; C114_mult, C114_preproc: exact up to rounding, and exactly when; C114_garble: the number for every run of garble; C114_garble_gap: exactly what the script misses for circuits of full blocks without INV gates; C114_garble_estimate_false: so it is always too low there. Field multiplications of matrix products, sharings, reconstructions and local products are counted; not those of Lagrange coefficients, inverses and RandSharingTransform::new. The malicious estimate is for a protocol which is not in the repository.",
 "C115": "C115_com; C115_gauss_partial and C115_parity_partial: both costs are the stated ones if enough queries are free of errors; C115_gauss_false: otherwise the cost is finite although the attack never succeeds; C115_estimate: the estimate is a number between 0 and both costs; C115_printed: so printed parameters withstand both, for wanted securities of at least one bit and correctness errors below 2^-(tau+1); C115_least: a lower bound; C115_sd: where the search over the parameter of SD_ISD_q stops; C115_gauss_mono, C115_gauss_mono_false: longer keys. Exact reals instead of decimals and floats. That the estimated cost of the third attack (SD_ISD_q) is that of an algorithm is not stated.",
 "C116": "C116_query: the queries of every read, for every run of garble; C116_errors: their errors are different; C116_count: as many as reads times lpn_mssg_len; C116_estimate_partial: at most lpn_mssg_len if the wire is read once; C116_shipped, C116_estimate_false: the shipped circuits and the default parameters; C116_more: more queries never make Guass more expensive. A statement about the number of queries and the script's estimate, not about the hardness of LPN.",
 "C117": "C117_sides_partial: at most one gate for each side; C117_one_side: true if no wire is read on both sides; C117_false: two gates of aes_128.txt; C117_difference, C117_run: the difference of two rows, for any scheme and for every run on AES; C117_message, C117_list: the message follows uniquely for few errors, and up to a short list for more; C117_hidden: with tables as they should be, the other label of the output wire of an XOR gate is found. For how many circuits and packing parameters it happens is not stated.",
 "C118": "C118_uniform_partial, C118_zero, C118_iff: exactly when the key is uniform; C118_clear, C118_run: both labels can be read in every run with an AND gate which reads a wire twice; C118_false: such a file; C118_shipped: no such gates in the shipped circuits.",
 "C119": "C119_exactly: a list of messages is passed on first if and only if its frames come first; C119_pieces: any cut; C119_panic, C119_waits: what is left over.",
 "C120": "C120_memory_partial: messages of the sending task which fit are received as without a limit; C120_aborts: exactly when the process is aborted; C120_false: nine bytes are enough.",
 "C121": "C121_rule_partial: with the opposite inequality it is true; C121_iff: with the exact bound the rule is right for one threshold only; C121_false: n128_t31.txt with t = 40.",
 "C122": "C122_sound: no panic; C122_terminates, C122_delivered, C122_ends: the end; C122_waits: not before; C122_cleanup: the second loop of receive_router is dead code.",
 "C123": "C123_intended_partial, C123_masks: true for tables as they should be; C123_false: in every run of this code the value is revealed.",
 "C124": "C124_received_partial: how many bytes more the last party receives; C124_iff: when it does not; C124_share: the number of errors for each leader; C124_false: half adder, seven parties.",
 "C125": "C125_comm, C125_mono, C125_verification, C125_scale: communication; C125_comp: additions and multiplications (t + l at least 2); C125_threads: computation times; C125_same: the multiplications are those of C114. The protocol itself is not in the repository, so there is nothing to compare the malicious estimates with but the semi-honest ones.",
 "C126": "C126_sound, C126_terminates, C126_delivered_partial, C126_ends, C126_waits: messages for parties which exist; C126_unknown: the routing task panics exactly if some party sends to a party which does not exist; C126_stopped, C126_hang: what happens then; C126_delivered_false: the claim without the condition is false, a message between two innocent parties is lost.",
 "C127": "C127_private, C127_count: reduce_degree, also if the masks have errors chosen by the deviating parties; C127_mult: mult; C127_runs: every execution of C111 is covered; C127_sharp: t cannot be replaced by t + 1. The secrets stay hidden although the results may be wrong (C112).",
 "C128": "C128_private, C128_mult; C128_code: the computed matrix; C128_deals: what is dealt is accepted whatever it is. Messages have the right numbers of values; otherwise the claim is false (C137_private_false).",
 "C129": "C129_private_partial, C129_count_partial: runs of both kinds with masks from randtrans, if in randtrans the messages of the deviating parties have the right lengths or a wrong total length (then it fails); C129_one: all lengths for one deviating party; C129_private_false: with two deviating parties and messages of wrong lengths but the right total length, which the code accepts, the masks are sharings of low degree and do not hide; C129_errors: errors in the masks.",
 "C130": "C130_private, C130_code (the programs' matrix): for messages in randtrans of the right lengths or with the wrong total; errors of the dealers pass through randtrans as errors which the deviating parties know. C130_private_false: false for messages of wrong lengths with the right total.",
 "C131": "C131_private: for messages in randtrans of the right lengths or with the wrong total, circuits whose incomplete blocks of gate inputs have no wire twice, and runs of randtrans which precede the others. C131_jobs: the runs are the jobs of garble, with the same IDs, inputs and sharings. C131_inputs: inputs exist with the right lengths. False for other messages in randtrans: C130_private_false.",
 "C132": "C132_private, C132_garble: for messages with the right numbers of values (and, for garble, as C131). C132_free: nothing keeps the parties from getting the masks of all runs, and the deviating ones can send anything. C132_sees: what they see. False for other messages in randtrans: C130_private_false.",
 "C133": "As C132 (messages with the right numbers of values). For sub64.txt the packing parameters 7, 9, 15, 20, 21 and 23 are missing, with which blocks have wires twice but what is seen is hidden by other masks (C98_sub64_iff). With all other packing parameters the claim is false already for parties following the protocols (C98_aes_false, C98_sha_false, C98_sub64_false).",
 "C134": "C134_same, C134_share, C134_recon, C134_panics.",
 "C135": "C135_private_partial is for any runs of mult with results of rand and zero as masks and inputs; C135_preproc_partial is for preproc; C135_jobs says that without deviating parties these are the runs of preproc (AsyncPreproc). Here mult starts after the end of the dealing; for what runs at the same time see C136. Missing: dealers which send other numbers of values; a recipient checks only the total, and the claim is false for these (C137_private_false).",
 "C136": "C136_private_partial; C136_good_file_partial for the matrices of the binary; C136_free (the deviating parties can send anything of the right size, and everything can arrive), C136_sees (what they see are the messages of the code), C136_honest (without them the bits are those of randbit). Missing: dealers which send other numbers of values, for which the claim is false (C137_private_false). That the file must be good is necessary: C90_preproc_private_false is about a shipped file.",
 "C137": "C137_iff: accepted exactly if the total is right; C137_single_partial: one such party; C137_neighbours_partial: several such parties which follow one another do nothing that they could not do with right numbers of values; C137_noticed_false: two parties; C137_private_false: a linear combination of secrets is learnt, with the field and matrix of the program. With right numbers of values nothing is learnt (C128, C136)."
}