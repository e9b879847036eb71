{
 "claims": [
  {
   "property": "C01",
   "status": "proved",
   "theorems": [
    "Verif.C01_encode_decode",
    "Verif.C01_decode_encode",
    "Verif.C01_wrong_size",
    "Verif.C01_spec_determines"
   ],
   "note": "all integer point types, all integers, all byte strings"
  },
  {
   "property": "C02",
   "status": "proved",
   "theorems": [
    "Verif.C02_out_of_range_refused",
    "Verif.C02_never_wrapped"
   ],
   "note": ""
  },
  {
   "property": "C03",
   "status": "partial",
   "theorems": [
    "Verif.C03_sentinels_partial",
    "Verif.C03_u64_partial",
    "Verif.C03_violated",
    "Verif.C03_uint64_unimpl_reads_minus_one",
    "Verif.C03_acc64_high_reads_negative"
   ],
   "note": "Violated by uint64/acc64 (decoded as signed, suns.py:185-186): C03_violated. Proved for every other type and, for these two, below 2^63."
  },
  {
   "property": "C04",
   "status": "partial",
   "theorems": [
    "Verif.C04_string_roundtrip_partial",
    "Verif.C04_short_partial",
    "Verif.C04_violated",
    "Verif.C04_non_latin1_refused"
   ],
   "note": "Violated for string points of fewer than 8 registers (util.py:148-150): C04_violated. Proved for all others."
  },
  {
   "property": "C05",
   "status": "partial",
   "theorems": [
    "Verif.C05_exact_size_partial",
    "Verif.C05_violated",
    "Verif.C05_eui48_never_encodes"
   ],
   "note": "Violated for string points of fewer than 8 registers and eui48 (cannot be written). Proved for all others."
  },
  {
   "property": "C06",
   "status": "proved",
   "theorems": [
    "Verif.C06_ipv6_roundtrip",
    "Verif.C06_eui48_roundtrip"
   ],
   "note": "ipv6addr end to end; eui48 for the function itself (the table entry cannot be called, see C05_eui48_never_encodes)"
  },
  {
   "property": "C07",
   "status": "proved",
   "theorems": [
    "Verif.C07_appended_crc",
    "Verif.C07_check_iff_valid"
   ],
   "note": ""
  },
  {
   "property": "C08",
   "status": "proved",
   "theorems": [
    "Verif.C08_burst_detected",
    "Verif.C08_byte_error_detected",
    "Verif.C08_odd_errors_detected",
    "Verif.C08_three_bit_errors_detected"
   ],
   "note": "bursts of up to 16 bits in transmission order, any odd number of bit errors, and (frames up to 256 bytes) any 1-3 bit errors"
  },
  {
   "property": "C09",
   "status": "proved",
   "theorems": [
    "Verif.C09_requests",
    "Verif.C09_terminates"
   ],
   "note": "arbitrary slave behaviour"
  },
  {
   "property": "C10",
   "status": "proved",
   "theorems": [
    "Verif.C10_fragmentation"
   ],
   "note": "reads and writes, any fragmentation"
  },
  {
   "property": "C11",
   "status": "proved",
   "theorems": [
    "Verif.C11_read",
    "Verif.C11_read_sound"
   ],
   "note": "any conforming slave and fragmentation"
  },
  {
   "property": "C12",
   "status": "proved",
   "theorems": [
    "Verif.C12_read_errors",
    "Verif.C12_write_errors"
   ],
   "note": "for exception codes other than 0 (code 0 is not a Modbus exception code; see C13_rtu_none)"
  },
  {
   "property": "C13",
   "status": "partial",
   "theorems": [
    "Verif.C13_rtu_violated",
    "Verif.C13_rtu_violated_slave",
    "Verif.C13_rtu_none",
    "Verif.C13_rtu_partial",
    "Verif.C13_tcp_violated",
    "Verif.C13_tcp_unchecked",
    "Verif.C13_tcp_partial"
   ],
   "note": "Violated on RTU and TCP (neither slave id, function nor byte count of a reply is checked): C13_rtu_violated, C13_tcp_violated. Proved: returned data is the concatenation of the payloads of complete (RTU: CRC-valid) replies, one per request in order, and has the right size if each reply has."
  },
  {
   "property": "C14",
   "status": "proved",
   "theorems": [
    "Verif.C14_write",
    "Verif.C14_write_sound",
    "Verif.C14_write_echoed"
   ],
   "note": ""
  },
  {
   "property": "C15",
   "status": "proved",
   "theorems": [
    "Verif.C15_requests",
    "Verif.C15_terminates"
   ],
   "note": "arbitrary server behaviour; also termination"
  },
  {
   "property": "C16",
   "status": "proved",
   "theorems": [
    "Verif.C16_fragmentation"
   ],
   "note": "all histories of connect/close/read/write calls"
  },
  {
   "property": "C17",
   "status": "proved",
   "theorems": [
    "Verif.C17_read",
    "Verif.C17_read_sound",
    "Verif.C17_history"
   ],
   "note": "any conforming server, any segmentation, after any history of calls"
  },
  {
   "property": "C18",
   "status": "partial",
   "theorems": [
    "Verif.C18_long_writes_fail",
    "Verif.C18_violated",
    "Verif.C18_write_partial",
    "Verif.C18_sound_partial"
   ],
   "note": "Violated by every write longer than max_count registers (UnboundLocalError, nothing sent): C18_long_writes_fail. Proved for the others, and all-or-nothing for all."
  },
  {
   "property": "C19",
   "status": "partial",
   "theorems": [
    "Verif.C19_stale_reply_returned",
    "Verif.C19_history_violated",
    "Verif.C19_violated",
    "Verif.C19_fresh_connection_partial"
   ],
   "note": "Violated on a persistent connection: C19_stale_reply_returned (every pending reply is returned), C19_history_violated (reachable). Proved for calls that open their own connection, and (C17_history) with conforming servers."
  },
  {
   "property": "C20",
   "status": "partial",
   "theorems": [
    "Verif.C20_failed_connect_leaks",
    "Verif.C20_violated",
    "Verif.C20_released_partial"
   ],
   "note": "Violated when the connection attempt fails: C20_failed_connect_leaks. Proved whenever it succeeds, for all outcomes of the call."
  },
  {
   "property": "C21",
   "status": "partial",
   "theorems": [
    "Verif.C21_stuck",
    "Verif.C21_violated",
    "Verif.C21_close_recovers_partial",
    "Verif.C21_reconnect_partial"
   ],
   "note": "Violated: C21_stuck (no later read or write ever succeeds or sends anything). Proved: recovery after close(), and after failures other than the connection attempt."
  },
  {
   "property": "C22",
   "status": "partial",
   "theorems": [
    "Verif.C22_violated_duplicate",
    "Verif.C22_violated_double_close",
    "Verif.C22_sharing_partial",
    "Verif.C22_mismatch_refused",
    "Verif.C22_parameters"
   ],
   "note": "Violated for two devices with the same slave id on one port, and by closing a device twice (C22_violated_duplicate, C22_violated_double_close). Proved for all histories without these. Refusal of mismatching line parameters: all states."
  },
  {
   "property": "C23",
   "status": "partial",
   "theorems": [
    "Verif.C23_function",
    "Verif.C23_read",
    "Verif.C23_read_negative",
    "Verif.C23_write",
    "Verif.C23_write_odd",
    "Verif.C23_history",
    "Verif.C23_violated_float_count"
   ],
   "note": "Proved for regular maps (integer offsets and counts, gaps between blocks: everything built with regs_add, or loaded from elements with explicit lengths), for every history; violated for float counts (hexstr without len, hex files): C23_violated_float_count."
  },
  {
   "property": "C24",
   "status": "partial",
   "theorems": [
    "Verif.C24_violated",
    "Verif.C24_unchanged_partial",
    "Verif.C24_damage_partial"
   ],
   "note": "Violated (C24_violated): a write running over the end of a block changes registers before it raises. Proved: what it changes exactly, and that nothing changes if the first register does not exist."
  },
  {
   "property": "C25",
   "status": "partial",
   "theorems": [
    "Verif.C25_violated",
    "Verif.C25_load_partial",
    "Verif.C25_regs_add"
   ],
   "note": "Violated for hexadecimal elements longer than their length (C25_violated). Proved for all documents whose elements describe registers, and for regs_add."
  },
  {
   "property": "C26",
   "status": "partial",
   "theorems": [
    "Verif.C26_violated",
    "Verif.C26_roundtrip_partial"
   ],
   "note": "Violated for maps with float counts (C26_violated). Proved for all regular maps without empty blocks."
  },
  {
   "property": "C27",
   "status": "partial",
   "theorems": [
    "Verif.C27_violated",
    "Verif.C27_violated_symmetry",
    "Verif.C27_exact_partial"
   ],
   "note": "Violated (C27_violated, C27_violated_symmetry) for data that does not match the count and for int/text base addresses. Proved for all regular maps."
  },
  {
   "property": "C28",
   "status": "proved",
   "theorems": [
    "Verif.C28_layout",
    "Verif.C28_accepted",
    "Verif.C28_unknown"
   ],
   "note": "For all definitions, addresses and reported lengths. Acceptance (C28_accepted) for definitions whose lengths are numbers and whose scale factors can be resolved; what happens otherwise is C29 and C30."
  },
  {
   "property": "C29",
   "status": "partial",
   "theorems": [
    "Verif.C29_terminates_partial",
    "Verif.C29_violated_general",
    "Verif.C29_violated"
   ],
   "note": "Violated: a definition with a repeating block of length 0 makes load loop for ever (C29_violated, C29_violated_general). Proved for all other definitions, including those with unparsable lengths."
  },
  {
   "property": "C30",
   "status": "proved",
   "theorems": [
    "Verif.C30_resolved",
    "Verif.C30_unresolved",
    "Verif.C30_unresolved_repeating"
   ],
   "note": ""
  },
  {
   "property": "C31",
   "status": "proved",
   "theorems": [
    "Verif.C31_cover",
    "Verif.C31_whole"
   ],
   "note": "Coverage for every definition; wholeness for every definition whose points are in order, inside their block and of 1 to 125 registers."
  },
  {
   "property": "C32",
   "status": "partial",
   "theorems": [
    "Verif.C32_read",
    "Verif.C32_values_partial",
    "Verif.C32_memory",
    "Verif.C32_loaded",
    "Verif.C32_devices"
   ],
   "note": "C32_read, C32_memory, C32_loaded hold for every loaded model and device; the values are those of the SunSpec formats (C32_values_partial) except 64 bit unsigned values from 2^63 on, which the code decodes as negative (C03_violated). Instances for RTU, TCP and mapped devices."
  },
  {
   "property": "C33",
   "status": "partial",
   "theorems": [
    "Verif.C33_refreshed_partial",
    "Verif.C33_violated",
    "Verif.C33_raises",
    "Verif.C33_wrong_size"
   ],
   "note": "Proved for mapped devices and for conforming RTU/TCP devices; false in general: an RTU reply with byte count 0 makes read_points return normally with the old values (C33_violated)."
  },
  {
   "property": "C34",
   "status": "partial",
   "theorems": [
    "Verif.C34_float_value",
    "Verif.C34_violated",
    "Verif.C34_unscaled_partial",
    "Verif.C34_get_partial",
    "Verif.C34_set_partial",
    "Verif.C34_set_get_partial",
    "Verif.C34_idempotent_partial",
    "Verif.C34_idempotent_sharp",
    "Verif.C34_refused",
    "Verif.C34_special",
    "Verif.C34_tie",
    "Verif.C34_truncates",
    "Verif.C34_text"
   ],
   "note": "proved over exact rationals with double rounding (error bounds in the theorems), for all scale factors other than 0 from -250 to 250, given that pow(10,k) is accurate to one unit in the last place (Spec.PowOK, a hypothesis); the full statement is refuted for the scale factor 0 (C34_violated): assigned floats are truncated, not rounded. Getting and setting back is exact below 2^51 (C34_idempotent_partial) and not at 52 bits (C34_idempotent_sharp)."
  },
  {
   "property": "C35",
   "status": "partial",
   "theorems": [
    "Verif.C35_write_partial",
    "Verif.C35_violated"
   ],
   "note": "proved for every device that behaves as a register memory (mapped, RTU and TCP devices with conforming slaves) and every set of modified points whose values are encoded to the size of the point; the full statement is refuted (C35_violated): strings of less than 8 registers are encoded with a byte too many and overwrite the following register. Scale factor points are never written (C36_scale_points_ignored)."
  },
  {
   "property": "C36",
   "status": "partial",
   "theorems": [
    "Verif.C36_returns_partial",
    "Verif.C36_raises_partial",
    "Verif.C36_violated",
    "Verif.C36_point",
    "Verif.C36_scale_points_ignored"
   ],
   "note": "any device: a normal return is proved to mean written and unmarked (C36_returns_partial), after an exception all marks outside the failed request are proved right (C36_raises_partial); the full statement is refuted (C36_violated): marks are cleared before the request is sent. ClientPoint.write satisfies the property (C36_point)."
  },
  {
   "property": "C37",
   "status": "partial",
   "theorems": [
    "Verif.C37_encoded_partial",
    "Verif.C37_write_read_partial",
    "Verif.C37_loaded_partial",
    "Verif.C37_violated"
   ],
   "note": "proved for every memory-like device, every model and every set of assigned points, for all values a point can have except eui48 values and strings of less than 8 registers, for which it is refuted (C37_violated, C05_eui48_never_encodes)"
  },
  {
   "property": "C38",
   "status": "partial",
   "theorems": [
    "Verif.C38_scan_partial",
    "Verif.C38_violated",
    "Verif.C38_kept"
   ],
   "note": "proved for every memory-like device (mapped, RTU, TCP with conforming slaves), every chain of models and every list of base addresses: list, dictionary by id, base address, state; model objects have the id, address and (if not 0) length of the device. The full statement is refuted for models of length 0 (C38_violated): the object gets the length of the definition."
  },
  {
   "property": "C39",
   "status": "partial",
   "theorems": [
    "Verif.C39_terminates_partial",
    "Verif.C39_rtu_partial",
    "Verif.C39_tcp_partial",
    "Verif.C39_mapped_partial",
    "Verif.C39_violated"
   ],
   "note": "proved for every RTU slave, TCP server and map, conforming or not, if the definitions have repeating blocks of at least one register; otherwise refuted (C39_violated). A Modbus read that never returns is excluded: C09_terminates and C15_terminates prove that there is none in the model (where every recv returns)."
  },
  {
   "property": "C40",
   "status": "partial",
   "theorems": [
    "Verif.C40_first_partial",
    "Verif.C40_none",
    "Verif.C40_rescan_fails",
    "Verif.C40_rescan_violated",
    "Verif.C40_probe_violated"
   ],
   "note": "The first base address with SunS is used (C40_first_partial) and none means SunSpecClientError (C40_none), for devices that answer wrongly or raise Modbus errors; refuted: rescanning always fails (C40_rescan_fails), and a mapped device without registers at an earlier base address (ModbusMapError) or other exceptions end the scan (C40_probe_violated)."
  },
  {
   "property": "C41",
   "status": "partial",
   "theorems": [
    "Verif.C41_roundtrip_partial",
    "Verif.C41_exact_partial",
    "Verif.C41_single",
    "Verif.C41_errors",
    "Verif.C41_document",
    "Verif.C41_values_partial",
    "Verif.C41_written",
    "Verif.C41_violated",
    "Verif.C41_unimplemented"
   ],
   "note": "Proved for every device of loaded models with well-formed definitions and values text can carry if no point has a value in the first repeating block only (C41_roundtrip_partial, C41_values_partial, C41_written; C41_single for documents with one repeating block; C41_errors); C41_exact_partial says what happens otherwise: later blocks get the value of the first (C41_violated). Scaled points without a value raise TypeError in the loaded device (C41_unimplemented). for float32 points it is assumed that str and float are inverse on the values; element trees, not XML text."
  },
  {
   "property": "C42",
   "status": "partial",
   "theorems": [
    "Verif.C42_tree_partial",
    "Verif.C42_text_partial",
    "Verif.C42_model_index_fails",
    "Verif.C42_control_fails",
    "Verif.C42_model_add_fails",
    "Verif.C42_time_lost",
    "Verif.C42_errors",
    "Verif.C42_return_lost",
    "Verif.C42_violated",
    "Verif.C42_index_zero_lost"
   ],
   "note": "Proved for element trees of all plain records (C42_tree_partial) and for texts, pretty printed or not, if no model has an index, all characters are legal in XML and values have no carriage returns (C42_text_partial). Refuted otherwise (C42_violated): a model index > 1 is put into the tree as an int and cannot be written (C42_model_index_fails), model_add swaps index and namespace so that either makes the record impossible to write (C42_model_add_fails), the time of a parsed device is not written again (C42_time_lost), a point index 0 is dropped (C42_index_zero_lost), a carriage return in a value becomes a line feed (C42_return_lost), a value with a character XML does not have gives a text that cannot be parsed (C42_control_fails). Parsing raises only SunSpecDataError or ValueError (C42_errors). Of the XML text, the tree a parser makes of it is modelled."
  },
  {
   "property": "C43",
   "status": "partial",
   "theorems": [
    "Verif.C43_first_partial",
    "Verif.C43_violated",
    "Verif.C43_wrong_file"
   ],
   "note": "The first directory or archive that has the file wins, proved for path lists in which no directory follows an existing zip archive (C43_first_partial); refuted otherwise: the name is extended with the archive-internal path and the wrong (or no) file is found (C43_violated, C43_wrong_file)."
  },
  {
   "property": "C44",
   "status": "proved",
   "theorems": [
    "Verif.C44_roundtrip",
    "Verif.C44_injective",
    "Verif.C44_form"
   ],
   "note": "all ids; the file name determines the id, and the forms accepted are characterised (C44_form)."
  },
  {
   "property": "C45",
   "status": "partial",
   "theorems": [
    "Verif.C45_never_cached",
    "Verif.C45_same_definition_partial",
    "Verif.C45_definition_file_partial",
    "Verif.C45_violated"
   ],
   "note": "The result is always that of the file (C45_same_definition_partial), but the cache never hits: every lookup reads and parses the file again (C45_never_cached), which refutes the property (C45_violated)."
  },
  {
   "property": "C46",
   "status": "proved",
   "theorems": [
    "Verif.C46_accepts",
    "Verif.C46_refused",
    "Verif.C46_unique_ids",
    "Verif.C46_without_model"
   ],
   "note": "C46_accepts: the accepted documents are exactly the valid ones (ValidDoc); C46_refused; C46_unique_ids. A document without a model element is accepted and gives a definition without id (C46_without_model): ValidDoc says so explicitly."
  },
  {
   "property": "C47",
   "status": "partial",
   "theorems": [
    "Verif.C47_partial",
    "Verif.C47_instances",
    "Verif.C47_read",
    "Verif.C47_models",
    "Verif.C47_closed",
    "Verif.C47_points_name",
    "Verif.C47_violated"
   ],
   "note": "Proved for model names that are not attributes of the device object (device, models, close, read, __x__) and definitions without name clashes (C47_partial); C47_violated/C47_read/C47_models: a model called \"read\" becomes [None, <method>, model] and is missing from models, one called \"models\" makes the constructor raise."
  },
  {
   "property": "C48",
   "status": "partial",
   "theorems": [
    "Verif.C48_false_means_equal",
    "Verif.C48_no_error_partial",
    "Verif.C48_differs_partial",
    "Verif.C48_equal_partial",
    "Verif.C48_loaded",
    "Verif.C48_unknown_model",
    "Verif.C48_violated",
    "Verif.C48_symbols",
    "Verif.C48_scale_unseen",
    "Verif.C48_nan"
   ],
   "note": "False means equal definitions (up to missing attributes) and equal values, for all pairs of devices (C48_false_means_equal); a differing point value gives a reason and equal devices give False if all definitions are known and, for equality, shared or without symbols (C48_differs_partial, C48_equal_partial, C48_no_error_partial; C48_loaded: loaded devices meet the hypotheses). Refuted otherwise (C48_violated): a model without definition raises AttributeError even compared with itself (C48_unknown_model); separately loaded definitions with symbols are never equal (C48_symbols); scale factor points are not compared (C48_scale_unseen); NaN is not equal to itself (C48_nan)."
  },
  {
   "property": "C49",
   "status": "partial",
   "theorems": [
    "Verif.C49_restored_partial",
    "Verif.C49_paths_partial",
    "Verif.C49_violated"
   ],
   "note": "Restored for every nesting and outcome of the body, except when entering fails (C49_restored_partial, C49_paths_partial, C49_violated)."
  },
  {
   "property": "C50",
   "status": "proved",
   "theorems": [
    "Verif.C50_literal",
    "Verif.C50_refused",
    "Verif.C50_unique",
    "Verif.C50_decimal",
    "Verif.C50_int"
   ],
   "note": "pyInt_iff shows that the modelled int(text, 0) accepts exactly the grammar Spec.IntText (digits are ASCII: Python also accepts other Unicode digits)"
  },
  {
   "property": "C51",
   "status": "partial",
   "theorems": [
    "Verif.C51_read_limit",
    "Verif.C51_write_violated",
    "Verif.C51_write_refused",
    "Verif.C51_write_limit_partial"
   ],
   "note": "Reads proved. Writes violated with the default max_count 125: C51_write_violated. Proved for max_count <= 123."
  },
  {
   "property": "C52",
   "status": "partial",
   "theorems": [
    "Verif.C52_rtu_write_partial",
    "Verif.C52_rtu_read_fails",
    "Verif.C52_rtu_write_flag_fails",
    "Verif.C52_tcp_read_fails",
    "Verif.C52_tcp_write_fails",
    "Verif.C52_off",
    "Verif.C52_witness",
    "Verif.C52_violated"
   ],
   "note": "RTU writes with a trace function behave as without and the trace shows the requests (C52_rtu_write_partial). C52_violated: every RTU read and every TCP read and write with tracing raises TypeError before sending (ord of an int, C52_rtu_read_fails, C52_tcp_read_fails, C52_tcp_write_fails); trace=True of ClientDevice breaks RTU writes as well (C52_rtu_write_flag_fails)."
  },
  {
   "property": "C53",
   "status": "proved",
   "theorems": [
    "Verif.C53_read_errors",
    "Verif.C53_unreachable",
    "Verif.C53_write_errors"
   ],
   "note": "for exception codes other than 0"
  },
  {
   "property": "C54",
   "status": "partial",
   "theorems": [
    "Verif.C54_connection_partial",
    "Verif.C54_violated"
   ],
   "note": "exactly one connection (proved); closed after a successful scan (proved); refuted when the scan raises (C54_violated): the connection stays open."
  },
  {
   "property": "C55",
   "status": "proved",
   "theorems": [
    "Verif.C55_read_all",
    "Verif.C55_loaded",
    "Verif.C55_failure"
   ],
   "note": ""
  },
  {
   "property": "C56",
   "status": "partial",
   "theorems": [
    "Verif.C56_attributes",
    "Verif.C56_texts",
    "Verif.C56_model_texts",
    "Verif.C56_symbols_partial",
    "Verif.C56_symbols_violated",
    "Verif.C56_unknown_symbols"
   ],
   "note": "Attributes and texts proved for all documents (C56_attributes, C56_texts, C56_model_texts); symbols proved if the two blocks share no point id and the strings part has texts only for symbols of the definition, which are then the texts of the symbols (C56_symbols_partial); refuted otherwise: symbols of points with the same id are shared between the blocks (C56_symbols_violated), and symbols the definition does not have are added without id (C56_unknown_symbols)."
  },
  {
   "property": "C57",
   "status": "partial",
   "theorems": [
    "Verif.C57_points_partial",
    "Verif.C57_blocks_partial",
    "Verif.C57_unknown_partial",
    "Verif.C57_name",
    "Verif.C57_errors",
    "Verif.C57_violated"
   ],
   "note": "Proved for definitions without name clashes (C57_points_partial, C57_blocks_partial). C57_violated: a point called \"model\" makes the constructor raise RecursionError, an integer point called \"name\" ValueError, \"points\" AttributeError; a string point called \"name\" is overwritten with the model name and marked dirty (C57_name, C57_errors)."
  },
  {
   "property": "C58",
   "status": "proved",
   "theorems": [
    "Verif.C58_rtu",
    "Verif.C58_rtu_memory",
    "Verif.C58_tcp",
    "Verif.C58_tcp_memory",
    "Verif.C58_mapped"
   ],
   "note": "For every device, definition library and outcome (C58_rtu, C58_tcp); memory of conforming devices and maps unchanged (C58_rtu_memory, C58_tcp_memory, C58_mapped)."
  },
  {
   "property": "C59",
   "status": "proved",
   "theorems": [
    "Verif.C59_same_data",
    "Verif.C59_reread",
    "Verif.C59_rewrite",
    "Verif.C59_read_write"
   ],
   "note": "Any device that delivers the same data, and all memory-like devices (C59_same_data, C59_reread); second writes and writes after reads send nothing (C59_rewrite, C59_read_write)."
  },
  {
   "property": "C60",
   "status": "partial",
   "theorems": [
    "Verif.C60_sent",
    "Verif.C60_marks_partial",
    "Verif.C60_values_partial",
    "Verif.C60_write_partial",
    "Verif.C60_read_overwrites",
    "Verif.C60_stuck",
    "Verif.C60_violated",
    "Verif.C60_failed_write"
   ],
   "note": "In all histories, also with reads, writes and assignments that raise: marked points have been assigned since their last write, and assigned points are marked unless a write_points has raised since (C60_marks_partial); whatever fails, only assigned values are ever sent (C60_sent). Written values are the assigned ones in histories without a read between assignment and write (C60_values_partial, C60_write_partial). Refuted otherwise (C60_violated): read_points overwrites assigned values but keeps the marks, so the next write puts back what the registers contained at the read (C60_read_overwrites), and if the point was unimplemented then, every later write_points raises (C60_stuck); a write_points that raises can lose marks, so that the retry returns without storing the value (C60_failed_write)."
  },
  {
   "property": "C61",
   "status": "partial",
   "theorems": [
    "Verif.C61_assign",
    "Verif.C61_nearest",
    "Verif.C61_exact",
    "Verif.C61_tie",
    "Verif.C61_overflow",
    "Verif.C61_special",
    "Verif.C61_bad_text",
    "Verif.C61_violated",
    "Verif.C61_write_read_partial"
   ],
   "note": "Assignment exact (C61_assign), nearest single (C61_nearest), exact for singles, ties to even (C61_tie), infinities and NaN (C61_special), overflow refused before anything is sent (C61_overflow), write and read back on memory-like devices (C61_write_read_partial). C61_violated: text that is not a number is not refused, the point silently loses its value, and the next write raises struct.error (C61_bad_text)."
  },
  {
   "property": "C62",
   "status": "partial",
   "theorems": [
    "Verif.C62_careful_partial",
    "Verif.C62_single_partial",
    "Verif.C62_violated",
    "Verif.C62_clear_text"
   ],
   "note": "Holds for programs that close or reconnect after an exception (C62_careful_partial) and for single calls (C62_single_partial). Refuted in general (C62_violated, C62_clear_text): after a handshake that failed the socket stays connected without TLS, the next request goes out in clear and its answer is accepted."
  },
  {
   "property": "C63",
   "status": "partial",
   "theorems": [
    "Verif.C63_connect_partial",
    "Verif.C63_no_certificate",
    "Verif.C63_skip_verifies",
    "Verif.C63_violated",
    "Verif.C63_skip_violated",
    "Verif.C63_plain",
    "Verif.C63_transparent"
   ],
   "note": "connect succeeds exactly if the certificate verifies, given a client certificate (C63_connect_partial); options without tls have no effect (C63_plain); TLS is transparent (C63_transparent). C63_violated: without certfile a TLS device never connects (C63_no_certificate); insecure_skip_tls_verify still verifies the certificate chain (C63_skip_verifies, C63_skip_violated)."
  },
  {
   "property": "C64",
   "status": "partial",
   "theorems": [
    "Verif.C64_created_partial",
    "Verif.C64_rtu_possible",
    "Verif.C64_others_possible",
    "Verif.C64_map_error",
    "Verif.C64_unknown_type",
    "Verif.C64_violated",
    "Verif.C64_timeout",
    "Verif.C64_timeout_shared",
    "Verif.C64_released",
    "Verif.C64_failed_scan",
    "Verif.C64_device_name"
   ],
   "note": "Proved for the documented types and readable map files (C64_created_partial), with exact conditions for success (C64_rtu_possible, C64_others_possible); ports are given back (C64_released, C64_failed_scan; not if a model called device is followed by one that cannot be wrapped, C64_device_name); timeouts are set (C64_timeout). C64_violated: map file errors are not SunSpecClientError (C64_map_error), unknown types are accepted (C64_unknown_type), the timeout is shared by all devices on a port (C64_timeout_shared)."
  },
  {
   "property": "C65",
   "status": "partial",
   "theorems": [
    "Verif.C65_model_partial",
    "Verif.C65_device_partial",
    "Verif.C65_duplicates",
    "Verif.C65_violated"
   ],
   "note": "Model objects in all later states (C65_model_partial); devices whose models have different names (C65_device_partial). C65_violated: a name that several models have is printed as a list of object identities; if all names are shared the text does not depend on the values at all (C65_duplicates)."
  },
  {
   "property": "C66",
   "status": "partial",
   "theorems": [
    "Verif.C66_report_partial",
    "Verif.C66_unknown",
    "Verif.C66_read_partial",
    "Verif.C66_violated"
   ],
   "note": "Proved for models of known types (C66_report_partial), in particular after read() whatever the device answers (C66_read_partial). C66_violated: a model of unknown type (vendor model) raises AttributeError and ends the report (C66_unknown)."
  },
  {
   "property": "C67",
   "status": "partial",
   "theorems": [
    "Verif.C67_items",
    "Verif.C67_block_items",
    "Verif.C67_hidden_methods",
    "Verif.C67_program_partial",
    "Verif.C67_write_partial",
    "Verif.C67_read_partial",
    "Verif.C67_method_hidden",
    "Verif.C67_unknown_ignored",
    "Verif.C67_device_item",
    "Verif.C67_violated",
    "Verif.C67_block_hidden"
   ],
   "note": "Refinement to histories of the models, for programs in which any statement may raise (C67_program_partial), write (C67_write_partial), read (C67_read_partial), items are attributes (C67_items, C67_block_items). C67_violated: points or repeating blocks called read or write hide the methods (C67_method_hidden, C67_block_hidden); names that are not points are silently ignored (C67_unknown_ignored); d[name] = x always raises (C67_device_item)."
  },
  {
   "property": "C68",
   "status": "proved",
   "theorems": [
    "Verif.C68_unchanged",
    "Verif.C68_models",
    "Verif.C68_device",
    "Verif.C68_misfit"
   ],
   "note": "C68_unchanged, C68_models (all models of a device, loaded completely or not), C68_device; C68_misfit shows that a definition whose point has not the length of its type makes a read fail half way."
  },
  {
   "property": "C69",
   "status": "partial",
   "theorems": [
    "Verif.C69_rtu_read_partial",
    "Verif.C69_rtu_small_partial",
    "Verif.C69_tcp_read_partial",
    "Verif.C69_device_read_partial",
    "Verif.C69_rtu_write_partial",
    "Verif.C69_tcp_write_partial",
    "Verif.C69_rtu_scan_partial",
    "Verif.C69_tcp_scan_partial",
    "Verif.C69_addressable",
    "Verif.C69_timeout",
    "Verif.C69_violated",
    "Verif.C69_struct_error",
    "Verif.C69_type_error",
    "Verif.C69_refused"
   ],
   "note": "The exact classes for all devices: RTU reads SunSpecClientError or TypeError (C69_rtu_read_partial; only SunSpecClientError for models of up to 125 registers, C69_rtu_small_partial), RTU writes SunSpecClientError or struct.error, TCP reads SunSpecClientError or socket.timeout, TCP writes also UnboundLocalError (C18), scans also struct.error and ModbusClientError. Refuted as stated (C69_violated): socket.timeout of a silent server (C69_timeout), TypeError for an empty reply (C69_type_error), struct.error for exception code 0 (C69_struct_error), ModbusClientError when scan cannot connect (C69_refused)."
  },
  {
   "property": "C70",
   "status": "proved",
   "theorems": [
    "Verif.C70_rtu",
    "Verif.C70_tcp"
   ],
   "note": "C70_rtu, C70_tcp: all slaves and servers that send nothing, in all states; the reads of loaded models tile them by C31_cover."
  },
  {
   "property": "C71",
   "status": "proved",
   "theorems": [
    "Verif.C71_found"
   ],
   "note": "C71_found, for every device, definition library, progress callback and outcome; the reads are recorded by a device wrapper that is proved to change nothing."
  },
  {
   "property": "C72",
   "status": "partial",
   "theorems": [
    "Verif.C72_apart_partial",
    "Verif.C72_zero",
    "Verif.C72_violated"
   ],
   "note": "Holds if the device gives no model the length 0 (C72_apart_partial). Refuted otherwise (C72_violated): a model of length 0 gets the length of its definition, so its points are read from the registers of the next models (C72_zero)."
  },
  {
   "property": "C73",
   "status": "proved",
   "theorems": [
    "Verif.C73_program",
    "Verif.C73_request",
    "Verif.C73_exception_violated"
   ],
   "note": "C73_program: equal transcripts and registers for every adaptive program; C73_request: single requests, exceptions included. The class of the exception of a failing write is not compared in C73_program: C73_exception_violated shows that it differs exactly for writes of more than 125 registers (UnboundLocalError on TCP, see C18)."
  },
  {
   "property": "C74",
   "status": "partial",
   "theorems": [
    "Verif.C74_copy_partial",
    "Verif.C74_violated"
   ],
   "note": "C74_copy_partial: for all point types except eui48 (writing raises TypeError) and strings of less than 8 registers (C74_violated: two bytes too many are written); with scale factors, values of up to 51 bits and exponents -250..250."
  },
  {
   "property": "C75",
   "status": "partial",
   "theorems": [
    "Verif.C75_programs_partial",
    "Verif.C75_unused_partial",
    "Verif.C75_request_partial",
    "Verif.C75_late_violated"
   ],
   "note": "C75_programs_partial, C75_unused_partial, C75_request_partial: for devices that answer before the next request is sent. C75_late_violated: the late answer of one device is taken for the answer of another, since the device id of an answer is not checked."
  },
  {
   "property": "C76",
   "status": "proved",
   "theorems": [
    "Verif.C76_grouping",
    "Verif.C76_requests",
    "Verif.C76_recording",
    "Verif.C76_rtu",
    "Verif.C76_tcp"
   ],
   "note": "C76_requests for every device (writes recorded by a device that otherwise behaves the same, C76_recording), C76_grouping (the runs exist and are unique), C76_rtu: the frames on a serial line."
  },
  {
   "property": "C77",
   "status": "proved",
   "theorems": [
    "Verif.C77_cancel",
    "Verif.C77_obeyed"
   ],
   "note": "C77_cancel, C77_obeyed. (After a cancelled scan over Modbus TCP the connection stays open, C54, and the device cannot be scanned again, C40.)"
  },
  {
   "property": "C78",
   "status": "proved",
   "theorems": [
    "Verif.C78_read",
    "Verif.C78_rtu",
    "Verif.C78_tcp"
   ],
   "note": "C78_read, C78_rtu, C78_tcp. The bound of 42 registers is nearly reached (gapType: 42 1/3): a read of 126 registers, which the padding after a string of 125 causes, takes two requests."
  },
  {
   "property": "C79",
   "status": "proved",
   "theorems": [
    "Verif.C79_set",
    "Verif.C79_set_unscaled",
    "Verif.C79_get"
   ],
   "note": "C79_set, C79_set_unscaled (truncation), C79_get. Monotonicity of rounding to doubles (flq_mono) is proved across binades."
  },
  {
   "property": "C80",
   "status": "partial",
   "theorems": [
    "Verif.C80_point_partial",
    "Verif.C80_snapshot_partial",
    "Verif.C80_loaded_partial",
    "Verif.C80_devices",
    "Verif.C80_violated"
   ],
   "note": "C80_point_partial, C80_loaded_partial (every point, RTU and TCP by C80_devices), C80_snapshot_partial (models of up to 125 registers). Violated for values and scale factors in different requests (C80_violated): a value of 1 is scaled by a scale factor that the device had only later."
  },
  {
   "property": "C81",
   "status": "partial",
   "theorems": [
    "Verif.C81_alone",
    "Verif.C81_write_partial",
    "Verif.C81_two_partial",
    "Verif.C81_many_partial",
    "Verif.C81_requests",
    "Verif.C81_violated"
   ],
   "note": "C81_alone, C81_write_partial (one client among others), C81_requests, C81_two_partial, C81_many_partial (two or any number of clients, all interleavings). Assumes, like C35, that values are encoded to the size of their points; violated otherwise (C81_violated: short strings overwrite the register of another client)."
  },
  {
   "property": "C82",
   "status": "partial",
   "theorems": [
    "Verif.C82_program_partial",
    "Verif.C82_rtu_partial",
    "Verif.C82_tcp_partial",
    "Verif.C82_restriction",
    "Verif.C82_violated"
   ],
   "note": "C82_program_partial for all devices that behave as register memories, C82_rtu_partial, C82_tcp_partial for conforming slaves and servers, for programs that write 1 to 123 registers at a time (C82_restriction: the restriction changes nothing on the map). Violated beyond (C82_violated): a string of 124 registers is written to a map but not to a conforming device."
  },
  {
   "property": "C83",
   "status": "partial",
   "theorems": [
    "Verif.C83_equal_partial",
    "Verif.C83_unimplemented",
    "Verif.C83_leak",
    "Verif.C83_symbols",
    "Verif.C83_violated"
   ],
   "note": "C83_equal_partial: for devices in which every scaled point has a value, and a value in the first repeating block implies one in the others; definitions shared or without symbols. Violated beyond (C83_violated; C83_unimplemented, C83_leak, C83_symbols)."
  },
  {
   "property": "C84",
   "status": "partial",
   "theorems": [
    "Verif.C84_function",
    "Verif.C84_hex",
    "Verif.C84_load_partial",
    "Verif.C84_regs_add",
    "Verif.C84_violated",
    "Verif.C84_violated_left"
   ],
   "note": "C84_load_partial: registers stay for every document; ModbusMapError except for a non-numeric offset (TypeError, C84_violated); a refused document leaves its first registers in the map (C84_violated_left). C84_function, C84_hex, C84_regs_add hold in full."
  },
  {
   "property": "C85",
   "status": "partial",
   "theorems": [
    "Verif.C85_values_partial",
    "Verif.C85_lines",
    "Verif.C85_violated"
   ],
   "note": "C85_lines in full; C85_values_partial for integers, None, one-line texts other than the word None, and float32 values whose text Python reads back as the same number; violated for the text None (C85_violated)."
  },
  {
   "property": "C86",
   "status": "proved",
   "theorems": [
    "Verif.C86_calls",
    "Verif.C86_tls",
    "Verif.C86_programs"
   ],
   "note": "C86_calls (plain), C86_tls, C86_programs. That a failed connection attempt leaves its socket open until the next connect or close is C20_failed_connect_leaks."
  },
  {
   "property": "C87",
   "status": "partial",
   "theorems": [
    "Verif.C87_program_partial",
    "Verif.C87_changed",
    "Verif.C87_violated"
   ],
   "note": "Proved when each model id has one definition during the program (points with different ids, none called points): C87_program_partial. Violated when the definition found for an id changes between creations: the object of the first device loses the attributes of the old definition (C87_changed, C87_violated)."
  },
  {
   "property": "C88",
   "status": "proved",
   "theorems": [
    "Verif.C88_type",
    "Verif.C88_symbol",
    "Verif.C88_map"
   ],
   "note": "C88_type, C88_map, C88_symbol, for names that are words (no blanks, no line ends; a scale factor or symbol id is not the word None)."
  },
  {
   "property": "C89",
   "status": "partial",
   "theorems": [
    "Verif.C89_report_partial",
    "Verif.C89_not_found",
    "Verif.C89_no_device_partial",
    "Verif.C89_options",
    "Verif.C89_map_error",
    "Verif.C89_read_error",
    "Verif.C89_violated",
    "Verif.C89_document_partial",
    "Verif.C89_bad_document"
   ],
   "note": "C89_report_partial, C89_not_found, C89_no_device_partial, C89_options, C89_document_partial (a map document in a file, from the command line to the printed report, with the definitions in the files). Violated (C89_violated, C89_map_error, C89_bad_document, C89_read_error, C66_unknown): a refused TCP connection, a map file that cannot be loaded, a failing read and a model without definition end the command with a traceback."
  },
  {
   "property": "C90",
   "status": "partial",
   "theorems": [
    "Verif.C90_registers",
    "Verif.C90_registers_clear",
    "Verif.C90_points_partial",
    "Verif.C90_points_clear",
    "Verif.C90_device_partial",
    "Verif.C90_write",
    "Verif.C90_write_points_partial",
    "Verif.C90_scan_partial",
    "Verif.C90_scan_clear",
    "Verif.C90_violated"
   ],
   "note": "Violated (C90_violated): if noise turns the byte count of a reply into 0 and the first register contains the CRC of an empty reply, the reply is taken as one without data and read_points returns without refreshing. C90_points_partial: even then no value is wrong. The _clear theorems: the full property if the beginning of a disturbed reply is never a valid frame by coincidence. A request that is cut off is taken as lost."
  },
  {
   "property": "C91",
   "status": "partial",
   "theorems": [
    "Verif.C91_rtu_calls",
    "Verif.C91_rtu_partial",
    "Verif.C91_tcp_calls",
    "Verif.C91_tcp_partial",
    "Verif.C91_rtu_same",
    "Verif.C91_tcp_same",
    "Verif.C91_violated"
   ],
   "note": "RTU and TCP, single calls, models, scans. Model/Wire.lean models the clients call by call against arbitrary ports and networks; C91_rtu_same/_tcp_same show that the model used by the other properties agrees with it. Partial: a scan can hang in loading a definition whose repeating block has no registers (C91_violated, as C29/C39)"
  },
  {
   "property": "C92",
   "status": "partial",
   "theorems": [
    "Verif.C92_scan_partial",
    "Verif.C92_document",
    "Verif.C92_found_partial",
    "Verif.C92_check_partial",
    "Verif.C92_violated",
    "Verif.C92_scripting_partial"
   ],
   "note": "scan with the stateful lookup equals scan with the library in the files, from every reachable state of the dictionary. Partial: path lists with a directory after an existing zip file are excluded (C43): C92_violated"
  },
  {
   "property": "C93",
   "status": "partial",
   "theorems": [
    "Verif.C93_document_partial",
    "Verif.C93_from_pics_partial",
    "Verif.C93_errors",
    "Verif.C93_violated"
   ],
   "note": "Partial: path lists with a directory after an existing zip file are excluded (C43): C93_violated; a definition with an empty repeating block makes loading endless (C29)"
  },
  {
   "property": "C94",
   "status": "proved",
   "theorems": [
    "Verif.C94_u64",
    "Verif.C94_u64_data",
    "Verif.C94_double",
    "Verif.C94_double_data",
    "Verif.C94_int",
    "Verif.C94_refused",
    "Verif.C94_single",
    "Verif.C94_small_int"
   ],
   "note": "IEEE 754 is specified in Spec/Conv.lean (Denotes64) from sign, exponent and fraction"
  },
  {
   "property": "C95",
   "status": "partial",
   "theorems": [
    "Verif.C95_points_partial",
    "Verif.C95_rtu_partial",
    "Verif.C95_tcp_partial",
    "Verif.C95_faultySlave",
    "Verif.C95_faultyServer",
    "Verif.C95_violated"
   ],
   "note": "Strings of less than 8 registers are excluded: they are encoded with one byte too many, so that the register after them is overwritten (C95_violated, cause see C05). All faults, all sizes and all other points are covered."
  },
  {
   "property": "C96",
   "status": "partial",
   "theorems": [
    "Verif.C96_waits",
    "Verif.C96_reads",
    "Verif.C96_writes_partial",
    "Verif.C96_violated"
   ],
   "note": "The last sentence is violated: the port has no lock, and a thread may receive the reply to the request of another thread (C96_violated). Strings of less than 8 registers are excluded for write_points (C05)."
  },
  {
   "property": "C97",
   "status": "partial",
   "theorems": [
    "Verif.C97_registers_partial",
    "Verif.C97_values_partial",
    "Verif.C97_violated"
   ],
   "note": "Violated for points that are not implemented in the second device: read_points sets value_sf to None, so that the value is stored without the scale factor the device has (C97_violated). Excluded as in C74: eui48, short strings; integers of more than 51 bits (53 bits for different scale factors); for different scale factors, values that leave the range of the point."
  },
  {
   "property": "C98",
   "status": "proved",
   "theorems": [
    "Verif.C98_forgets",
    "Verif.C98_values",
    "Verif.C98_programs",
    "Verif.C98_loaded"
   ],
   "note": "For any device whatsoever under the condition that data has been delivered (C98_forgets); that an RTU reply without data leaves the old values in place is C33_violated."
  },
  {
   "property": "C99",
   "status": "partial",
   "theorems": [
    "Verif.C99_request",
    "Verif.C99_program",
    "Verif.C99_reload_partial"
   ],
   "note": "The interchangeability is proved without restriction (C99_program, C99_request). Saving: for maps of holding or input registers without empty blocks and without blocks before the base address; others are not written or loaded correctly (C26_violated)."
  },
  {
   "property": "C100",
   "status": "partial",
   "theorems": [
    "Verif.C100_rtu_ends_partial",
    "Verif.C100_tcp_ends_partial",
    "Verif.C100_rtu_errors_partial",
    "Verif.C100_tcp_errors_partial",
    "Verif.C100_rtu_recovers",
    "Verif.C100_tcp_recovers",
    "Verif.C100_tcp_released",
    "Verif.C100_unplugged",
    "Verif.C100_violated",
    "Verif.C100_stuck"
   ],
   "note": "Ends and recovery are proved for all ports and networks (scans: for sound definitions, C39). Exceptions of flushInput, serial.read and recv are not wrapped and reach the user as they are (C100_violated, C100_unplugged); after a failing close the dead socket is kept and all later calls fail until connect is called (C100_stuck)."
  },
  {
   "property": "C101",
   "status": "partial",
   "theorems": [
    "Verif.C101_created_partial",
    "Verif.C101_values_partial",
    "Verif.C101_violated",
    "Verif.C101_violated_error"
   ],
   "note": "All documents whose elements are described by their attributes (C25) and all path lists without directories after zip files (C43; C101_violated). The exception is a ModbusMapError instead of SunSpecClientError (C101_violated_error, C64)."
  },
  {
   "property": "C102",
   "status": "partial",
   "theorems": [
    "Verif.C102_sent_partial",
    "Verif.C102_once_partial",
    "Verif.C102_violated"
   ],
   "note": "Violated for neighbouring strings of less than 8 registers (their data is one byte too long each, so the register of the next point is sent): C102_violated. Proved for all models without such strings."
  },
  {
   "property": "C103",
   "status": "partial",
   "theorems": [
    "Verif.C103_read_partial",
    "Verif.C103_order_partial",
    "Verif.C103_value_partial",
    "Verif.C103_devices",
    "Verif.C103_violated"
   ],
   "note": "Violated for neighbouring strings of less than 8 registers: their data is one byte too long each, so the reader sees a changed value of a point that nobody has modified (C103_violated). Proved for all models without such strings."
  },
  {
   "property": "C104",
   "status": "partial",
   "theorems": [
    "Verif.C104_points_partial",
    "Verif.C104_last_partial",
    "Verif.C104_read_partial",
    "Verif.C104_violated"
   ],
   "note": "Violated for neighbouring strings of less than 8 registers: their data is one byte too long each, so a point that nobody has modified changes (C104_violated). Proved for all models without such strings."
  },
  {
   "property": "C105",
   "status": "partial",
   "theorems": [
    "Verif.C105_assign_partial",
    "Verif.C105_registers_partial",
    "Verif.C105_whole",
    "Verif.C105_violated"
   ],
   "note": "The registers are exact (C105_registers_partial, C105_assign_partial). The value read back is not always the number assigned: after value = 0.3 with the scale factor -1 it is 0.30000000000000004 (C105_violated); it is within a relative error of 2^-50, so that rounding to the digits of the scale factor gives the number back; exact for positive scale factors (C105_whole). With scale factors: integers up to 2^48."
  },
  {
   "property": "C106",
   "status": "proved",
   "theorems": [
    "Verif.C106_scan_same",
    "Verif.C106_read_same",
    "Verif.C106_no_map",
    "Verif.C106_scan_true",
    "Verif.C106_read",
    "Verif.C106_read_true",
    "Verif.C106_silent",
    "Verif.C106_refused",
    "Verif.C106_write_same",
    "Verif.C106_write_true",
    "Verif.C106_write_point",
    "Verif.C106_command_same",
    "Verif.C106_command",
    "Verif.C106_command_rtu"
   ],
   "note": "C106_scan_same, C106_read_same, C106_write_same: without the texts the functions are those of the other properties."
  },
  {
   "property": "C107",
   "status": "partial",
   "theorems": [
    "Verif.C107_waits",
    "Verif.C107_reads",
    "Verif.C107_writes_partial",
    "Verif.C107_violated"
   ],
   "note": "C107_violated: a read may return what another thread has asked for (all transaction ids are 0, and there is no lock). Proved: the bound on waits, that what a read returns has been received as complete replies after its own requests, and the safety of writes of at most 123 registers per request."
  }
 ]
}