st('C01', 'proved', 'all integer point types, all integers, all byte strings')
st('C02', 'proved', '')
st('C03', 'partial', 'Violated by uint64/acc64 (decoded as signed, suns.py:185-186): C03_violated. Proved for every other type and, for these two, below 2^63.')
st('C04', 'partial', 'Violated for string points of fewer than 8 registers (util.py:148-150): C04_violated. Proved for all others.')
st('C05', 'partial', 'Violated for string points of fewer than 8 registers and eui48 (cannot be written). Proved for all others.')
st('C06', 'proved', 'ipv6addr end to end; eui48 for the function itself (the table entry cannot be called, see C05_eui48_never_encodes)')
st('C07', 'proved', '')
st('C08', 'proved', 'bursts of up to 16 bits in transmission order, any odd number of bit errors, and (frames up to 256 bytes) any 1-3 bit errors')
st('C09', 'proved', 'arbitrary slave behaviour')
st('C10', 'proved', 'reads and writes, any fragmentation')
st('C11', 'proved', 'any conforming slave and fragmentation')
st('C12', 'proved', 'for exception codes other than 0 (code 0 is not a Modbus exception code; see C13_rtu_none)')
st('C14', 'proved', '')
st('C13', 'partial', 'Violated on RTU and TCP (neither slave id, function nor byte count of a reply is checked): C13_rtu_violated, C13_tcp_violated. Proved: returned data is the concatenation of the payloads of complete (RTU: CRC-valid) replies, one per request in order, and has the right size if each reply has.')
st('C15', 'proved', 'arbitrary server behaviour; also termination')
st('C16', 'proved', 'all histories of connect/close/read/write calls')
st('C17', 'proved', 'any conforming server, any segmentation, after any history of calls')
st('C18', 'partial', 'Violated by every write longer than max_count registers (UnboundLocalError, nothing sent): C18_long_writes_fail. Proved for the others, and all-or-nothing for all.')
st('C19', 'partial', 'Violated on a persistent connection: C19_stale_reply_returned (every pending reply is returned), C19_history_violated (reachable). Proved for calls that open their own connection, and (C17_history) with conforming servers.')
st('C20', 'partial', 'Violated when the connection attempt fails: C20_failed_connect_leaks. Proved whenever it succeeds, for all outcomes of the call.')
st('C21', 'partial', 'Violated: C21_stuck (no later read or write ever succeeds or sends anything). Proved: recovery after close(), and after failures other than the connection attempt.')
st('C51', 'partial', 'Reads proved. Writes violated with the default max_count 125: C51_write_violated. Proved for max_count <= 123.')
st('C53', 'proved', 'for exception codes other than 0')
st('C22', 'partial', 'Violated for two devices with the same slave id on one port, and by closing a device twice (C22_violated_duplicate, C22_violated_double_close). Proved for all histories without these. Refusal of mismatching line parameters: all states.')

st('C23','partial','Proved for regular maps (integer offsets and counts, gaps between blocks: everything built with regs_add, or loaded from elements with explicit lengths), for every history; violated for float counts (hexstr without len, hex files): C23_violated_float_count.')
st('C24','partial','Violated (C24_violated): a write running over the end of a block changes registers before it raises. Proved: what it changes exactly, and that nothing changes if the first register does not exist.')
st('C25','partial','Violated for hexadecimal elements longer than their length (C25_violated). Proved for all documents whose elements describe registers, and for regs_add.')
st('C26','partial','Violated for maps with float counts (C26_violated). Proved for all regular maps without empty blocks.')
st('C27','partial','Violated (C27_violated, C27_violated_symmetry) for data that does not match the count and for int/text base addresses. Proved for all regular maps.')
st('C28','proved','For all definitions, addresses and reported lengths. Acceptance (C28_accepted) for definitions whose lengths are numbers and whose scale factors can be resolved; what happens otherwise is C29 and C30.')
st('C29','partial','Violated: a definition with a repeating block of length 0 makes load loop for ever (C29_violated, C29_violated_general). Proved for all other definitions, including those with unparsable lengths.')
st('C30','proved','')
st('C31','proved','Coverage for every definition; wholeness for every definition whose points are in order, inside their block and of 1 to 125 registers.')
st('C32','partial','C32_read, C32_memory, C32_loaded hold for every loaded model and device; the values are those of the SunSpec formats (C32_values_partial) except 64 bit unsigned values from 2^63 on, which the code decodes as negative (C03_violated). Instances for RTU, TCP and mapped devices.')
st('C33','partial','Proved for mapped devices and for conforming RTU/TCP devices; false in general: an RTU reply with byte count 0 makes read_points return normally with the old values (C33_violated).')
st('C35','partial','proved for every device that behaves as a register memory (mapped, RTU and TCP devices with conforming slaves) and every set of modified points whose values are encoded to the size of the point; the full statement is refuted (C35_violated): strings of less than 8 registers are encoded with a byte too many and overwrite the following register. Scale factor points are never written (C36_scale_points_ignored).')
st('C36','partial','any device: a normal return is proved to mean written and unmarked (C36_returns_partial), after an exception all marks outside the failed request are proved right (C36_raises_partial); the full statement is refuted (C36_violated): marks are cleared before the request is sent. ClientPoint.write satisfies the property (C36_point).')
st('C37','partial','proved for every memory-like device, every model and every set of assigned points, for all values a point can have except eui48 values and strings of less than 8 registers, for which it is refuted (C37_violated, C05_eui48_never_encodes)')
st('C34','partial','proved over exact rationals with double rounding (error bounds in the theorems), for all scale factors other than 0 from -250 to 250, given that pow(10,k) is accurate to one unit in the last place (Spec.PowOK, a hypothesis); the full statement is refuted for the scale factor 0 (C34_violated): assigned floats are truncated, not rounded. Getting and setting back is exact below 2^51 (C34_idempotent_partial) and not at 52 bits (C34_idempotent_sharp).')
st('C50','proved','pyInt_iff shows that the modelled int(text, 0) accepts exactly the grammar Spec.IntText (digits are ASCII: Python also accepts other Unicode digits)')
st('C38','partial','proved for every memory-like device (mapped, RTU, TCP with conforming slaves), every chain of models and every list of base addresses: list, dictionary by id, base address, state; model objects have the id, address and (if not 0) length of the device. The full statement is refuted for models of length 0 (C38_violated): the object gets the length of the definition.')
st('C39','partial','proved for every RTU slave, TCP server and map, conforming or not, if the definitions have repeating blocks of at least one register; otherwise refuted (C39_violated). A Modbus read that never returns is excluded: C09_terminates and C15_terminates prove that there is none in the model (where every recv returns).')
st('C40','partial','The first base address with SunS is used (C40_first_partial) and none means SunSpecClientError (C40_none), for devices that answer wrongly or raise Modbus errors; refuted: rescanning always fails (C40_rescan_fails), and a mapped device without registers at an earlier base address (ModbusMapError) or other exceptions end the scan (C40_probe_violated).')
st('C54','partial','exactly one connection (proved); closed after a successful scan (proved); refuted when the scan raises (C54_violated): the connection stays open.')
st('C55','proved','')

st('C43','partial','The first directory or archive that has the file wins, proved for path lists in which no directory follows an existing zip archive (C43_first_partial); refuted otherwise: the name is extended with the archive-internal path and the wrong (or no) file is found (C43_violated, C43_wrong_file).')
st('C44','proved','all ids; the file name determines the id, and the forms accepted are characterised (C44_form).')
st('C45','partial','The result is always that of the file (C45_same_definition_partial), but the cache never hits: every lookup reads and parses the file again (C45_never_cached), which refutes the property (C45_violated).')
st('C46','proved','C46_accepts: the accepted documents are exactly the valid ones (ValidDoc); C46_refused; C46_unique_ids. A document without a model element is accepted and gives a definition without id (C46_without_model): ValidDoc says so explicitly.')
st('C49','partial','Restored for every nesting and outcome of the body, except when entering fails (C49_restored_partial, C49_paths_partial, C49_violated).')
st('C56','partial','Attributes and texts proved for all documents (C56_attributes, C56_texts, C56_model_texts); symbols proved if the two blocks share no point id and the strings part has texts only for symbols of the definition, which are then the texts of the symbols (C56_symbols_partial); refuted otherwise: symbols of points with the same id are shared between the blocks (C56_symbols_violated), and symbols the definition does not have are added without id (C56_unknown_symbols).')
st('C47','partial','Proved for model names that are not attributes of the device object (device, models, close, read, __x__) and definitions without name clashes (C47_partial); C47_violated/C47_read/C47_models: a model called "read" becomes [None, <method>, model] and is missing from models, one called "models" makes the constructor raise.')
st('C52','partial','RTU writes with a trace function behave as without and the trace shows the requests (C52_rtu_write_partial). C52_violated: every RTU read and every TCP read and write with tracing raises TypeError before sending (ord of an int, C52_rtu_read_fails, C52_tcp_read_fails, C52_tcp_write_fails); trace=True of ClientDevice breaks RTU writes as well (C52_rtu_write_flag_fails).')
st('C57','partial','Proved for definitions without name clashes (C57_points_partial, C57_blocks_partial). C57_violated: a point called "model" makes the constructor raise RecursionError, an integer point called "name" ValueError, "points" AttributeError; a string point called "name" is overwritten with the model name and marked dirty (C57_name, C57_errors).')
st('C41','partial','Proved for every device of loaded models with well-formed definitions and values text can carry if no point has a value in the first repeating block only (C41_roundtrip_partial, C41_values_partial, C41_written; C41_single for documents with one repeating block; C41_errors); C41_exact_partial says what happens otherwise: later blocks get the value of the first (C41_violated). Scaled points without a value raise TypeError in the loaded device (C41_unimplemented). for float32 points it is assumed that str and float are inverse on the values; element trees, not XML text.')
st('C48','partial','False means equal definitions (up to missing attributes) and equal values, for all pairs of devices (C48_false_means_equal); a differing point value gives a reason and equal devices give False if all definitions are known and, for equality, shared or without symbols (C48_differs_partial, C48_equal_partial, C48_no_error_partial; C48_loaded: loaded devices meet the hypotheses). Refuted otherwise (C48_violated): a model without definition raises AttributeError even compared with itself (C48_unknown_model); separately loaded definitions with symbols are never equal (C48_symbols); scale factor points are not compared (C48_scale_unseen); NaN is not equal to itself (C48_nan).')
st('C42','partial','Proved for element trees of all plain records (C42_tree_partial) and for texts, pretty printed or not, if no model has an index, all characters are legal in XML and values have no carriage returns (C42_text_partial). Refuted otherwise (C42_violated): a model index > 1 is put into the tree as an int and cannot be written (C42_model_index_fails), model_add swaps index and namespace so that either makes the record impossible to write (C42_model_add_fails), the time of a parsed device is not written again (C42_time_lost), a point index 0 is dropped (C42_index_zero_lost), a carriage return in a value becomes a line feed (C42_return_lost), a value with a character XML does not have gives a text that cannot be parsed (C42_control_fails). Parsing raises only SunSpecDataError or ValueError (C42_errors). Of the XML text, the tree a parser makes of it is modelled.')
st('C58','proved','For every device, definition library and outcome (C58_rtu, C58_tcp); memory of conforming devices and maps unchanged (C58_rtu_memory, C58_tcp_memory, C58_mapped).')
st('C59','proved','Any device that delivers the same data, and all memory-like devices (C59_same_data, C59_reread); second writes and writes after reads send nothing (C59_rewrite, C59_read_write).')
st('C60','partial','In all histories, also with reads, writes and assignments that raise: marked points have been assigned since their last write, and assigned points are marked unless a write_points has raised since (C60_marks_partial); whatever fails, only assigned values are ever sent (C60_sent). Written values are the assigned ones in histories without a read between assignment and write (C60_values_partial, C60_write_partial). Refuted otherwise (C60_violated): read_points overwrites assigned values but keeps the marks, so the next write puts back what the registers contained at the read (C60_read_overwrites), and if the point was unimplemented then, every later write_points raises (C60_stuck); a write_points that raises can lose marks, so that the retry returns without storing the value (C60_failed_write).')
st('C61','partial','Assignment exact (C61_assign), nearest single (C61_nearest), exact for singles, ties to even (C61_tie), infinities and NaN (C61_special), overflow refused before anything is sent (C61_overflow), write and read back on memory-like devices (C61_write_read_partial). C61_violated: text that is not a number is not refused, the point silently loses its value, and the next write raises struct.error (C61_bad_text).')
st('C62','partial','Holds for programs that close or reconnect after an exception (C62_careful_partial) and for single calls (C62_single_partial). Refuted in general (C62_violated, C62_clear_text): after a handshake that failed the socket stays connected without TLS, the next request goes out in clear and its answer is accepted.')
st('C63','partial','connect succeeds exactly if the certificate verifies, given a client certificate (C63_connect_partial); options without tls have no effect (C63_plain); TLS is transparent (C63_transparent). C63_violated: without certfile a TLS device never connects (C63_no_certificate); insecure_skip_tls_verify still verifies the certificate chain (C63_skip_verifies, C63_skip_violated).')
st('C64','partial','Proved for the documented types and readable map files (C64_created_partial), with exact conditions for success (C64_rtu_possible, C64_others_possible); ports are given back (C64_released, C64_failed_scan; not if a model called device is followed by one that cannot be wrapped, C64_device_name); timeouts are set (C64_timeout). C64_violated: map file errors are not SunSpecClientError (C64_map_error), unknown types are accepted (C64_unknown_type), the timeout is shared by all devices on a port (C64_timeout_shared).')
st('C65','partial','Model objects in all later states (C65_model_partial); devices whose models have different names (C65_device_partial). C65_violated: a name that several models have is printed as a list of object identities; if all names are shared the text does not depend on the values at all (C65_duplicates).')
st('C66','partial','Proved for models of known types (C66_report_partial), in particular after read() whatever the device answers (C66_read_partial). C66_violated: a model of unknown type (vendor model) raises AttributeError and ends the report (C66_unknown).')
st('C67','partial','Refinement to histories of the models, for programs in which any statement may raise (C67_program_partial), write (C67_write_partial), read (C67_read_partial), items are attributes (C67_items, C67_block_items). C67_violated: points or repeating blocks called read or write hide the methods (C67_method_hidden, C67_block_hidden); names that are not points are silently ignored (C67_unknown_ignored); d[name] = x always raises (C67_device_item).')
st('C68','proved','C68_unchanged, C68_models (all models of a device, loaded completely or not), C68_device; C68_misfit shows that a definition whose point has not the length of its type makes a read fail half way.')
st('C69','partial','The exact classes for all devices: RTU reads SunSpecClientError or TypeError (C69_rtu_read_partial; only SunSpecClientError for models of up to 125 registers, C69_rtu_small_partial), RTU writes SunSpecClientError or struct.error, TCP reads SunSpecClientError or socket.timeout, TCP writes also UnboundLocalError (C18), scans also struct.error and ModbusClientError. Refuted as stated (C69_violated): socket.timeout of a silent server (C69_timeout), TypeError for an empty reply (C69_type_error), struct.error for exception code 0 (C69_struct_error), ModbusClientError when scan cannot connect (C69_refused).')
st('C70','proved','C70_rtu, C70_tcp: all slaves and servers that send nothing, in all states; the reads of loaded models tile them by C31_cover.')
st('C71','proved','C71_found, for every device, definition library, progress callback and outcome; the reads are recorded by a device wrapper that is proved to change nothing.')
st('C72','partial','Holds if the device gives no model the length 0 (C72_apart_partial). Refuted otherwise (C72_violated): a model of length 0 gets the length of its definition, so its points are read from the registers of the next models (C72_zero).')
st('C73','proved','C73_program: equal transcripts and registers for every adaptive program; C73_request: single requests, exceptions included. The class of the exception of a failing write is not compared in C73_program: C73_exception_violated shows that it differs exactly for writes of more than 125 registers (UnboundLocalError on TCP, see C18).')
st('C74','partial','C74_copy_partial: for all point types except eui48 (writing raises TypeError) and strings of less than 8 registers (C74_violated: two bytes too many are written); with scale factors, values of up to 51 bits and exponents -250..250.')
st('C75','partial','C75_programs_partial, C75_unused_partial, C75_request_partial: for devices that answer before the next request is sent. C75_late_violated: the late answer of one device is taken for the answer of another, since the device id of an answer is not checked.')
st('C76','proved','C76_requests for every device (writes recorded by a device that otherwise behaves the same, C76_recording), C76_grouping (the runs exist and are unique), C76_rtu: the frames on a serial line.')
st('C77','proved','C77_cancel, C77_obeyed. (After a cancelled scan over Modbus TCP the connection stays open, C54, and the device cannot be scanned again, C40.)')
st('C78','proved','C78_read, C78_rtu, C78_tcp. The bound of 42 registers is nearly reached (gapType: 42 1/3): a read of 126 registers, which the padding after a string of 125 causes, takes two requests.')
st('C79','proved','C79_set, C79_set_unscaled (truncation), C79_get. Monotonicity of rounding to doubles (flq_mono) is proved across binades.')
st('C80','partial','C80_point_partial, C80_loaded_partial (every point, RTU and TCP by C80_devices), C80_snapshot_partial (models of up to 125 registers). Violated for values and scale factors in different requests (C80_violated): a value of 1 is scaled by a scale factor that the device had only later.')
st('C81','partial','C81_alone, C81_write_partial (one client among others), C81_requests, C81_two_partial, C81_many_partial (two or any number of clients, all interleavings). Assumes, like C35, that values are encoded to the size of their points; violated otherwise (C81_violated: short strings overwrite the register of another client).')
st('C82','partial','C82_program_partial for all devices that behave as register memories, C82_rtu_partial, C82_tcp_partial for conforming slaves and servers, for programs that write 1 to 123 registers at a time (C82_restriction: the restriction changes nothing on the map). Violated beyond (C82_violated): a string of 124 registers is written to a map but not to a conforming device.')
st('C83','partial','C83_equal_partial: for devices in which every scaled point has a value, and a value in the first repeating block implies one in the others; definitions shared or without symbols. Violated beyond (C83_violated; C83_unimplemented, C83_leak, C83_symbols).')
st('C84','partial','C84_load_partial: registers stay for every document; ModbusMapError except for a non-numeric offset (TypeError, C84_violated); a refused document leaves its first registers in the map (C84_violated_left). C84_function, C84_hex, C84_regs_add hold in full.')
st('C85','partial','C85_lines in full; C85_values_partial for integers, None, one-line texts other than the word None, and float32 values whose text Python reads back as the same number; violated for the text None (C85_violated).')
st('C86','proved','C86_calls (plain), C86_tls, C86_programs. That a failed connection attempt leaves its socket open until the next connect or close is C20_failed_connect_leaks.')
st('C87','partial','Proved when each model id has one definition during the program (points with different ids, none called points): C87_program_partial. Violated when the definition found for an id changes between creations: the object of the first device loses the attributes of the old definition (C87_changed, C87_violated).')
st('C88','proved','C88_type, C88_map, C88_symbol, for names that are words (no blanks, no line ends; a scale factor or symbol id is not the word None).')
st('C89','partial','C89_report_partial, C89_not_found, C89_no_device_partial, C89_options, C89_document_partial (a map document in a file, from the command line to the printed report, with the definitions in the files). Violated (C89_violated, C89_map_error, C89_bad_document, C89_read_error, C66_unknown): a refused TCP connection, a map file that cannot be loaded, a failing read and a model without definition end the command with a traceback.')
st('C90','partial','Violated (C90_violated): if noise turns the byte count of a reply into 0 and the first register contains the CRC of an empty reply, the reply is taken as one without data and read_points returns without refreshing. C90_points_partial: even then no value is wrong. The _clear theorems: the full property if the beginning of a disturbed reply is never a valid frame by coincidence. A request that is cut off is taken as lost.')
st('C91','partial','RTU and TCP, single calls, models, scans. Model/Wire.lean models the clients call by call against arbitrary ports and networks; C91_rtu_same/_tcp_same show that the model used by the other properties agrees with it. Partial: a scan can hang in loading a definition whose repeating block has no registers (C91_violated, as C29/C39)')
st('C92','partial','scan with the stateful lookup equals scan with the library in the files, from every reachable state of the dictionary. Partial: path lists with a directory after an existing zip file are excluded (C43): C92_violated')
st('C93','partial','Partial: path lists with a directory after an existing zip file are excluded (C43): C93_violated; a definition with an empty repeating block makes loading endless (C29)')
st('C94','proved','IEEE 754 is specified in Spec/Conv.lean (Denotes64) from sign, exponent and fraction')
st('C95','partial','Strings of less than 8 registers are excluded: they are encoded with one byte too many, so that the register after them is overwritten (C95_violated, cause see C05). All faults, all sizes and all other points are covered.')
st('C96','partial','The last sentence is violated: the port has no lock, and a thread may receive the reply to the request of another thread (C96_violated). Strings of less than 8 registers are excluded for write_points (C05).')
st('C97','partial','Violated for points that are not implemented in the second device: read_points sets value_sf to None, so that the value is stored without the scale factor the device has (C97_violated). Excluded as in C74: eui48, short strings; integers of more than 51 bits (53 bits for different scale factors); for different scale factors, values that leave the range of the point.')
st('C98','proved','For any device whatsoever under the condition that data has been delivered (C98_forgets); that an RTU reply without data leaves the old values in place is C33_violated.')
st('C99','partial','The interchangeability is proved without restriction (C99_program, C99_request). Saving: for maps of holding or input registers without empty blocks and without blocks before the base address; others are not written or loaded correctly (C26_violated).')
st('C100','partial','Ends and recovery are proved for all ports and networks (scans: for sound definitions, C39). Exceptions of flushInput, serial.read and recv are not wrapped and reach the user as they are (C100_violated, C100_unplugged); after a failing close the dead socket is kept and all later calls fail until connect is called (C100_stuck).')
st('C101','partial','All documents whose elements are described by their attributes (C25) and all path lists without directories after zip files (C43; C101_violated). The exception is a ModbusMapError instead of SunSpecClientError (C101_violated_error, C64).')
st('C102','partial','Violated for neighbouring strings of less than 8 registers (their data is one byte too long each, so the register of the next point is sent): C102_violated. Proved for all models without such strings.')
st('C103','partial','Violated for neighbouring strings of less than 8 registers: their data is one byte too long each, so the reader sees a changed value of a point that nobody has modified (C103_violated). Proved for all models without such strings.')
st('C104','partial','Violated for neighbouring strings of less than 8 registers: their data is one byte too long each, so a point that nobody has modified changes (C104_violated). Proved for all models without such strings.')
st('C105','partial','The registers are exact (C105_registers_partial, C105_assign_partial). The value read back is not always the number assigned: after value = 0.3 with the scale factor -1 it is 0.30000000000000004 (C105_violated); it is within a relative error of 2^-50, so that rounding to the digits of the scale factor gives the number back; exact for positive scale factors (C105_whole). With scale factors: integers up to 2^48.')
st('C106','proved','C106_scan_same, C106_read_same, C106_write_same: without the texts the functions are those of the other properties.')
st('C107','partial','C107_violated: a read may return what another thread has asked for (all transaction ids are 0, and there is no lock). Proved: the bound on waits, that what a read returns has been received as complete replies after its own requests, and the safety of writes of at most 123 registers per request.')
