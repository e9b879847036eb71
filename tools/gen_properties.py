#!/usr/bin/env python3
"""Writes /verif/properties.jsonl (one JSON object per line)."""
import json, os
P = []
def p(title, statement, quantifier, why, anchors):
    P.append(dict(id="C%02d" % (len(P)+1), title=title, statement=statement,
                  quantifier=quantifier, why_tests_cant=why, anchors=anchors))
U="sunspec/core/util.py"; S="sunspec/core/suns.py"; D="sunspec/core/device.py"; C="sunspec/core/client.py"
M="sunspec/core/modbus/client.py"; B="sunspec/core/modbus/mbmap.py"; X="sunspec/core/data.py"; SM="sunspec/core/smdx.py"

p("Integer register codec round-trip",
  "For every SunSpec integer point type, encoding an integer that is in the range of the type's codec yields the big-endian (two's complement where signed) bytes of that integer and decoding them returns the same integer; conversely decoding any byte string of the right size and encoding the result returns the same bytes; a byte string of any other size is rejected.",
  "all integers, all byte strings, all 18 integer-valued point types",
  "2^16, 2^32 and 2^64 values per type; tests sample two per codec",
  [f"{U}:data_to_s16..data_to_u64,s16_to_data..u64_to_data", f"{S}:suns_point_type_info"])
p("Out-of-range integers are refused, never wrapped",
  "Encoding an integer outside the type's range raises an error; no integer is ever silently truncated, wrapped or saturated into other register contents.",
  "all integers and all integer point types", "the rejected set is infinite",
  [f"{U}:*_to_data", f"{C}:ClientPoint.write,ClientModel.write_points"])
p("Unimplemented sentinel decoding",
  "For every point type, reading registers that hold the SunSpec 'not implemented' pattern of that type gives the value None, and reading any other register contents gives the number/string those registers encode.",
  "all register contents of every point type",
  "the register space is 2^16..2^64 patterns per type; tests check single sentinels (and none for uint64)",
  [f"{S}:suns_is_impl_*,SUNS_UNIMPL_*,suns_point_type_info", f"{C}:ClientModel.read_points"])
p("String point round-trip",
  "A non-empty latin-1 string that neither starts nor ends with NUL and fits in a string point is read back unchanged after being encoded for that point; a longer one is truncated to exactly the point's size; NUL padding is stripped on reading.",
  "all strings, all point sizes", "unbounded strings and sizes",
  [f"{U}:str_to_data,data_to_str"])
p("Encoded data exactly fills the point's registers",
  "For every point type and every encodable value, the bytes produced for a write are exactly two per register of the point, so that a write never touches a neighbouring register nor shifts the data of the next point.",
  "all point types, lengths and encodable values", "every string length/value pair matters; tests use one 16-register string",
  [f"{U}:str_to_data,ipv6addr_to_data,eui48_to_data,*_to_data", f"{C}:ClientModel.write_points,ClientPoint.write"])
p("IPv6 and EUI-48 text round-trip",
  "Decoding the registers of an ipv6addr (eui48) point to text and encoding the text again returns the same registers, for every non-zero address.",
  "all 2^128 (2^48) addresses", "address space cannot be enumerated",
  [f"{U}:data_to_ipv6addr,ipv6addr_to_data,data_to_eui48,eui48_to_data"])
p("CRC is the Modbus CRC-16",
  "The checksum computed for a byte string is the Modbus CRC-16 (reflected polynomial 0xA001, initial value 0xFFFF, low byte transmitted first) of that byte string.",
  "all byte strings of every length", "unbounded strings; tests check two frames",
  [f"{M}:computeCRC,__generate_crc16_table"])
p("CRC detects every short burst",
  "If a frame (payload plus its CRC) is altered in any way confined to 16 consecutive bits (in particular any single bit or any single byte), the altered frame fails the CRC check.",
  "all payloads, all burst positions and patterns", "number of frames and burst positions is unbounded",
  [f"{M}:computeCRC,checkCRC,ModbusClientRTU._read,_write"])
p("RTU read requests are well-formed and partition the range",
  "Whatever the slave answers, a read of count registers at addr only ever sends frames <slave, function, address, quantity, valid CRC> whose quantities are between 1 and max_count, and the address ranges are consecutive from addr; if the read returns normally with data they cover exactly [addr, addr+count).",
  "all slaves (arbitrary, adversarial responses), addresses, counts, max_counts", "every response behaviour and every chunk boundary",
  [f"{M}:ModbusClientRTU.read,_read"])
p("RTU response handling is independent of fragmentation",
  "The outcome of an RTU request depends only on the byte sequence received, not on how the serial driver splits it over successive read() calls.",
  "all byte sequences and all ways of splitting them", "exponentially many fragmentations (schedules)",
  [f"{M}:ModbusClientRTU._read,_write"])
p("RTU read returns the slave's registers",
  "Against a conforming slave, reading any number of existing registers (addr+count <= 65536) with any max_count in 1..125 returns exactly the contents of the registers [addr, addr+count) in order, two big-endian bytes each; with any other arguments it returns exactly that or raises.",
  "all register memories, addresses, counts, max_counts, fragmentations", "unbounded memories and chunk boundaries",
  [f"{M}:ModbusClientRTU.read,_read,ModbusClientDeviceRTU.read"])
p("RTU error replies surface as errors",
  "An RTU exception reply with a (non-zero) exception code raises a ModbusClientException carrying its code, a frame with a wrong CRC raises a ModbusClientError, and a truncated reply raises a timeout: no read or write returns normally on them.",
  "all replies", "all reply contents",
  [f"{M}:ModbusClientRTU._read,_write"])
p("A successful register read has the requested size",
  "When a read of count registers returns, it returns exactly 2*count bytes which were sent by the addressed slave in answer to that request; any other reply is an error.",
  "all slave behaviours", "adversarial/misaddressed replies are outside any finite test set",
  [f"{M}:ModbusClientRTU._read,read", f"{M}:ModbusClientDeviceTCP._read,read"])
p("RTU write updates exactly the addressed registers",
  "Against a conforming slave an RTU write of any even number of bytes to existing registers with max_count in 1..123 stores exactly those bytes in the registers starting at addr and changes nothing else; a failing write has stored a prefix of the data and nothing else; a write returns normally only if the slave echoed slave id, function, address and quantity of every chunk.",
  "all data lengths, max_counts, memories, slave behaviours", "unbounded lengths, chunk boundaries",
  [f"{M}:ModbusClientRTU.write,_write"])
p("TCP requests are well-formed and partition the range",
  "Whatever the server answers, a TCP read only sends well-formed MBAP read requests with quantities in 1..max_count at consecutive addresses starting at addr.",
  "all server behaviours, addresses, counts, max_counts", "every response behaviour",
  [f"{M}:ModbusClientDeviceTCP.read,_read"])
p("TCP response handling is independent of fragmentation",
  "The outcome of a TCP request depends only on the byte stream received, not on how it is segmented into recv() results.",
  "all byte streams and segmentations", "exponentially many segmentations (schedules)",
  [f"{M}:ModbusClientDeviceTCP._read,_write"])
p("TCP read returns the server's registers",
  "Against a conforming server, reading any number of existing registers with any max_count in 1..125 returns exactly the contents of [addr, addr+count).",
  "all memories, addresses, counts, max_counts, segmentations", "unbounded",
  [f"{M}:ModbusClientDeviceTCP.read,_read"])
p("TCP write of any length updates exactly the addressed registers",
  "Against a conforming server a TCP write of any even number of bytes stores exactly those bytes starting at addr, in requests of at most max_count registers, and changes nothing else.",
  "all data lengths, max_counts, memories", "the splitting branch only runs above max_count",
  [f"{M}:ModbusClientDeviceTCP.write,_write"])
p("A TCP reply is only used for the request it answers",
  "Data returned by a TCP read is the answer to that read, not a late answer to an earlier request on the same connection.",
  "all histories of requests, timeouts and late replies", "depends on message timing across requests",
  [f"{M}:ModbusClientDeviceTCP._read (transaction id is constantly 0 and never compared)"])
p("Temporary TCP connections are always released",
  "If no connection exists, read/write open one and it is closed again when the call ends, normally or by any exception; an existing connection is left open.",
  "all call outcomes", "every failure point of the call",
  [f"{M}:ModbusClientDeviceTCP.read,write,connect,disconnect"])
p("TCP client recovers after a failed connection attempt",
  "A read or write that fails because the device is unreachable does not prevent later reads and writes from succeeding once the device is reachable again.",
  "all histories of reachability", "history property",
  [f"{M}:ModbusClientDeviceTCP.connect,read,write"])
p("RTU port sharing",
  "For every history of opening and closing RTU devices, devices on the same port share one client with one set of line parameters (a mismatching request is refused), the port stays open while some device on it is open, and is closed and forgotten when the last one is closed.",
  "all histories of open/close over any ports, slave ids, parameters", "history property",
  [f"{M}:modbus_rtu_client,modbus_rtu_client_remove,ModbusClientRTU.add_device,remove_device,ModbusClientDeviceRTU.__init__,close"])
p("Modbus map behaves like register memory",
  "On a register map, a read returns the latest data written to each register (or its initial contents); a write changes exactly the addressed registers; reads or writes touching an undefined register raise ModbusMapError.",
  "all maps, all sequences of reads and writes", "unbounded histories",
  [f"{B}:ModbusMap.read,write,ModbusMapRegs.read,write"])
p("A failed map write changes nothing",
  "If writing to a register map raises an error, the map is unchanged.",
  "all maps, addresses and data", "needs every overlap of data with block boundaries",
  [f"{B}:ModbusMap.write"])
p("Map loading places every element at its offset",
  "Loading a map document yields ascending, non-overlapping register blocks in which every element's value is found at its offset; overlapping or descending elements are refused.",
  "all documents", "unbounded documents",
  [f"{B}:ModbusMap.from_xml,regs_add,ModbusMapRegs.append"])
p("Map document round-trip",
  "Writing a register map to XML and loading it again gives a map that answers every read identically.",
  "all maps, all reads", "unbounded maps",
  [f"{B}:ModbusMap.to_xml,from_xml"])
p("Map comparison is exact",
  "ModbusMap.not_equal returns False exactly when base address, function and all register blocks (offset, count, data, access) agree; it is symmetric.",
  "all pairs of maps", "all pairs",
  [f"{B}:ModbusMap.not_equal,ModbusMapRegs.not_equal"])
p("Model block layout",
  "When a model loads, its blocks tile the model contiguously from the model's address: one fixed block followed, if the definition has a repeating block, by exactly (model length - fixed length)/repeating length repeating blocks ending at the model's end, and every point's address is its block's address plus its offset; a length that is too short for the blocks or ends inside a repeating block is an error (without repeating block, extra registers are accepted).",
  "all model definitions, addresses and reported lengths", "unbounded number of repeating blocks",
  [f"{D}:Model.load"])
p("Model loading terminates",
  "Loading a model returns or raises for every model definition and every length reported by a device.",
  "all definitions and device-reported lengths", "termination over all inputs",
  [f"{D}:Model.load"])
p("Scale factor resolution",
  "Each scaled point is bound to the constant given in the definition, else to the scale factor point of that name in its own block, else (repeating blocks) to the one in the fixed block; if there is none loading fails.",
  "all definitions, all repeating block instances", "unbounded definitions",
  [f"{D}:Model.load"])
p("Model reads are complete and never split a point",
  "Reading a model issues consecutive reads that cover exactly the model's registers, and (for points of at most 125 registers) no point is split over two Modbus requests.",
  "all definitions and model lengths", "unbounded layouts",
  [f"{D}:Model.load (read_blocks)", f"{C}:ClientModel.read_points"])
p("read_points decodes every point from its own registers",
  "After a successful read of a model, every point holds the decoding of the registers at its own address (None if the unimplemented pattern), and every implemented scaled point uses the scale factor obtained in that same read.",
  "all models, register contents", "unbounded models and contents",
  [f"{C}:ClientModel.read_points"])
p("A model read refreshes everything or raises",
  "When read_points returns normally, the point values are those of the device at that read; if the device did not deliver the data an error is raised.",
  "all device replies", "all reply behaviours",
  [f"{C}:ClientModel.read_points", f"{M}:ModbusClientRTU.read"])
p("Scaled value get/set",
  "The value of a scaled point is base*10^sf; setting value v stores the integer nearest to v/10^sf, so that reading it back differs from v by at most half a unit, and setting a point to the value it already has leaves it unchanged (for all integer types up to 32 bits, in double precision).",
  "all base values, scale factors and assigned values", "every value/scale pair; floating-point rounding",
  [f"{D}:Point.value_getter,value_setter"])
p("write_points writes exactly the modified points",
  "Writing a model changes exactly the registers of the points modified since the last write, to the encodings of their values, whatever subset of points is modified and however adjacent points are merged into one request.",
  "all models, all subsets of modified points, all values", "2^n subsets of points",
  [f"{C}:ClientModel.write_points"])
p("Modified marks survive failed writes",
  "After write_points returns every modified point has been written and is no longer marked modified; if it raises, every modified point whose data was not accepted by the device is still marked, so that a later write_points writes it.",
  "all failure points", "every crash/failure point",
  [f"{C}:ClientModel.write_points", f"{D}:Point.dirty"])
p("Write then read returns the written value",
  "After setting a point, writing the model and reading it back, the point has the value that was set (rounded to the point's resolution) and all other points of the model are unchanged.",
  "all models, points, values", "end-to-end over all layouts and values",
  [f"{C}:ClientModel.write_points,read_points", f"{B}:ModbusMap.read,write"])
p("Scan discovers exactly the device's models",
  "Scanning a device whose memory is 'SunS' followed by a chain of models (id, length, contents) and the end marker yields exactly those models, in order, with their ids, addresses and lengths.",
  "all model chains, contents and base addresses", "unbounded chains",
  [f"{C}:ClientDevice.scan"])
p("Scan terminates on every device",
  "Scanning terminates whatever the device answers.",
  "all device behaviours (adversarial)", "termination over all behaviours",
  [f"{C}:ClientDevice.scan"])
p("Base address probing",
  "Scan tries the base addresses in order, uses the first at which the device presents 'SunS', and raises a SunSpecClientError if there is none; a scanned device can be scanned again.",
  "all device behaviours at the probed addresses", "all combinations of failing/answering addresses",
  [f"{C}:ClientDevice.scan,ClientDevice.read"])
p("PICS round-trip",
  "Writing a device to a PICS document with all repeating blocks and loading the document gives a device with the same point values.",
  "all devices", "all models/values/implemented subsets",
  [f"{D}:Device.to_pics,from_pics,Model.to_pics,from_pics,Block.to_pics,from_pics,Point.to_pics,from_pics"])
p("SunSpec data record round-trip",
  "Serialising a data record and parsing it gives the same devices, models and points (identification, index, scale factor, time, value).",
  "all data records", "unbounded records",
  [f"{X}:SunSpecData,DeviceData,ModelData,PointData"])
p("Path list finds the first match",
  "Looking up a file in a path list returns the contents from the first path (directory or zip file) in the list that contains it, and raises NameError only if none does.",
  "all path lists and file systems", "all path lists/file systems",
  [f"{U}:PathList.read"])
p("Model file names and ids correspond",
  "The id recovered from the file name generated for a model id is that id; different ids have different file names.",
  "all model ids", "all integers",
  [f"{SM}:model_id_to_filename,model_filename_to_id"])
p("Model definitions are loaded once",
  "Requesting the definition of a model id that was requested before returns the same definition object without reading the file again.",
  "all request histories", "history property",
  [f"{D}:model_type_get,model_types"])
p("Definition parsing is validated",
  "A successfully parsed definition has at most one fixed and one repeating block, unique point ids within a block, only known point types, and a length for every string point; anything else is refused.",
  "all definition documents", "unbounded documents",
  [f"{D}:ModelType.from_smdx,BlockType.from_smdx,PointType.from_smdx"])
p("Scripting wrapper names models consistently",
  "In the scripting device, each distinct model name appears once in 'models' in order of first appearance; a name with one instance is that model, a name with k>1 instances is a list whose elements 1..k are the instances in device order.",
  "all model sequences", "unbounded sequences",
  [f"{C}:SunSpecClientDevice.__init__"])
p("Device comparison",
  "Device.not_equal returns False for a device compared with one that has equal definitions and values, and a reason when some point value differs.",
  "all pairs of devices", "all pairs",
  [f"{D}:Device.not_equal,Model.not_equal,Block.not_equal,Point.not_equal,ModelType.not_equal,BlockType.not_equal,PointType.not_equal"])
p("Temporary path list is always undone",
  "Leaving a fresh_file_pathlist context restores the previous path list, for every nesting and whether or not the body raises.",
  "all nestings and exceptions", "all nestings/crash points",
  [f"{D}:fresh_file_pathlist"])
p("Text values are parsed like Python integer literals",
  "Assigning a text value to an unscaled integer point stores the integer the text denotes (decimal, 0x, 0o, 0b); the decimal text of any integer denotes that integer; text that is not an integer literal is refused and leaves the point unmodified.",
  "all texts and integers", "unbounded texts",
  [f"{S}:suns_to_int,suns_to_long", f"{D}:Point.value_setter,Point.from_pics"])
p("Modbus quantity limits",
  "No request exceeds the limits of the Modbus specification: at most 125 registers per read and 123 registers per write, with the default max_count.",
  "all reads and writes", "all lengths",
  [f"{M}:REQ_COUNT_MAX,ModbusClientRTU.read,write,ModbusClientDeviceTCP.read,write"])
p("Enabling trace does not change results",
  "Reading and writing with tracing enabled gives the same results as without.",
  "all requests", "all requests",
  [f"{M}:ModbusClientRTU._read,_write,ModbusClientDeviceTCP._read,_write", f"{C}:ClientDevice.__init__"])
p("TCP error replies raise errors",
  "If a TCP request cannot be sent, or its reply is incomplete (timeout or closed connection), or is a Modbus exception reply, the read or write raises an error (for an exception reply one carrying the exception code) and never returns data; without a usable connection nothing is sent.",
  "all server behaviours, histories and request sequences", "all server behaviours and segmentations",
  [f"{M}:ModbusClientDeviceTCP._read,read,_write,write"])
p("A scan releases its connection",
  "Scanning a TCP device that has no connection opens exactly one connection, sends all its requests over it, and leaves no connection open, whatever the outcome of the scan.",
  "all servers, definitions, progress callbacks and outcomes (crash points)", "all server behaviours and failure points",
  [f"{C}:ClientDevice.scan", f"{M}:ModbusClientDeviceTCP.connect,disconnect"])
p("Reading a device refreshes all its models",
  "read_points of a device refreshes every model of the device with the contents of its own registers; if reading one model raises, that exception is raised, the earlier models have been refreshed and the later ones are unchanged.",
  "all devices, model lists and failure points", "unbounded model lists and all failure points",
  [f"{C}:ClientDevice.read_points,ClientModel.read_points"])
p("A parsed definition says what its document says",
  "The points of a parsed model definition have the id, offset, type, length, access, mandatory flag, units and scale factor of their elements (with the documented defaults), in order; texts come from the element and the strings part; every point has exactly the symbols of its own element.",
  "all documents", "all documents",
  [f"{D}:ModelType.from_smdx,BlockType.from_smdx,PointType.from_smdx,Symbol.from_smdx"])
p("Scripting attributes are the point values",
  "For every model of a SunSpecClientDevice, the attribute named like a point of the fixed block is the value of that point (None before the model is loaded), assigning to it sets that point and nothing else; 'repeating' (and the name of the repeating block) is [None, b1, ..., bn] with one object per repeating block, whose attributes are the points of that block; 'points' lists the ids of the points other than scale factors and padding. Constructing the object does not change the device's points.",
  "all devices, definitions, points, values and later states", "unbounded definitions and states; names come from the definition files",
  [f"{C}:SunSpecClientModelBase,SunSpecClientBlockBase,model_class_get,SunSpecClientDevice.__init__"])
p("Scanning and reading never write",
  "Scanning a device and reading its points send only requests to read holding registers (function 3, 1 to 125 registers each), whatever the device answers and wherever they fail; the registers of a device that conforms to Modbus, and a map, are the same afterwards.",
  "all devices, definitions, progress callbacks and failure points", "all device behaviours and failure points",
  [f"{C}:ClientDevice.scan,ClientDevice.read_points,ClientModel.read_points", f"{M}:ModbusClientRTU.read,ModbusClientDeviceTCP.read,ModbusClientDeviceMapped.read"])
p("Reading and writing again changes nothing",
  "Reading a model twice from a device whose registers have not changed leaves the model as after the first read. Once write_points has returned, calling it again sends nothing to the device; nor does writing a model whose points have only been read.",
  "all models, devices and states", "all models and register contents",
  [f"{C}:ClientModel.read_points,ClientModel.write_points"])
p("What has been assigned is what is written",
  "In every history of assignments, reads and writes of a model and its points, write_points stores in the device exactly the values assigned since the last write (the last one for each point), changes no other register, and leaves no point marked as modified; points are marked exactly if they have been assigned and not written since.",
  "all histories of assignments, reads, writes (each of which may raise) and changes of the device in between", "unbounded histories",
  [f"{C}:ClientModel.read_points,ClientModel.write_points,ClientPoint.write", f"{D}:Point.value_setter"])
p("Floating point values are stored as the nearest single",
  "Assigning a number (an int, a float or text that is a number) to a float point gives the point exactly that value; writing it stores the IEEE single nearest to it (ties to the even significand), so that singles are stored exactly and this is what is read back; infinities are stored as such, a NaN as 'not implemented'; a number beyond the range of singles is refused when it is written, before anything is sent; text that is not a number is refused when it is assigned.",
  "all numbers (rationals, infinities, NaN), points, models and memory-like devices", "unbounded domain of numbers; rounding boundaries",
  [f"{S}:suns_to_float", "sunspec/core/util.py:float32_to_data,data_to_float", f"{D}:Point.value_setter"])
p("TLS requests go only to an authenticated server, encrypted",
  "A Modbus TCP device created with tls=True never sends a request, nor takes an answer, except in a TLS session with a server whose certificate has been verified with the given CA file (or the system's certificates) and, unless insecure_skip_tls_verify is set, for the given address.",
  "all servers, certificates, options and sequences of connect, read, write and close", "the adversary chooses the server's behaviour; all histories",
  [f"{M}:ModbusClientDeviceTCP.connect,ModbusClientDeviceTCP.read,ModbusClientDeviceTCP.write"])
p("TLS options mean what the documentation says",
  "With tls=True connect succeeds exactly if the server accepts the connection and presents a valid certificate; insecure_skip_tls_verify skips the verification; the client certificate and the CA file are optional; without tls the other options have no effect; with an authenticated server reads and writes are those of plain Modbus TCP.",
  "all servers, certificates and options", "all combinations of options and server behaviours",
  [f"{M}:ModbusClientDeviceTCP.__init__,ModbusClientDeviceTCP.connect"])
p("Creating and closing client devices",
  "ClientDevice(type, ...) gives the device asked for: RTU the slave on the named serial port with the baud rate and parity given, TCP the given address, port (502 by default), timeout (2 s by default) and TLS options, MAPPED the registers of the given map file; or it raises SunSpecClientError and leaves the serial ports as they were. Each device has its own timeout. Closing it, or a SunSpecClientDevice whose scan fails, gives back the serial port.",
  "all argument combinations, map files, serial ports, and histories of creating and closing devices", "all histories and argument combinations",
  [f"{C}:ClientDevice.__init__,ClientDevice.close,SunSpecClientDevice.__init__", f"{M}:ModbusClientDeviceRTU.__init__,ModbusClientDeviceTCP.__init__,ModbusClientDeviceMapped.__init__"])
p("Printing shows every value",
  "str() of a model object is its name and id followed by one line 'id:  value' for each point that has a value, in the order of the definition, and the same for each repeating block with its name and index; str() of a SunSpecClientDevice is the texts of its models in order.",
  "all devices, definitions and later states", "all definitions and states",
  [f"{C}:SunSpecClientModelBase.__str__,SunSpecClientBlockBase.__str__,SunSpecClientDevice.__str__"])
p("The report of suns.py shows every implemented point once",
  "The report has one section per model of the device, in order, headed by its label and id, and in it exactly one line for each implemented point of each block, with the number of the repetition, the label, the id, the value and the units; ints (and bit fields, in hexadecimal) can be read back from the value column.",
  "all devices, whatever they answer", "all definitions and register contents",
  ["scripts/suns.py"])
p("Programs that use the scripting interface do what their statements say",
  "In every program of assignments to points (as attributes or items of model and block objects), read() and write() of model objects, each model of the device ends as after the corresponding assignments, reads and writes of its points; write() stores the values assigned since the last write and nothing else; read() makes the attributes the values of the registers; names that are not points are refused.",
  "all programs, devices, definitions and behaviours of the device in between", "unbounded programs",
  [f"{C}:SunSpecClientModelBase.__setitem__,SunSpecClientModelBase.__getitem__,SunSpecClientModelBase.read,SunSpecClientModelBase.write,SunSpecClientBlockBase.__setitem__,SunSpecClientDevice.__setitem__"])
p("A read that fails changes nothing",
  "If read_points of a model raises, whatever the device has answered and whatever the exception, every point of the model has the value it had before. If read_points of a device raises, each of its models has either been refreshed completely by this call or has the values it had before.",
  "all models loaded (completely or not) from definitions whose points lie inside their blocks and have the lengths of their types, all device behaviours and failure points", "all device behaviours and crash points",
  [f"{C}:ClientModel.read_points,ClientDevice.read_points", f"{D}:Model.load"])
p("Only SunSpecClientError reaches the caller",
  "Whatever the device answers, or if it does not answer, scanning a device, reading and writing its models raise SunSpecClientError, the documented exception class, and no other exception.",
  "all devices (RTU and TCP), answers, failure points, models whose registers have Modbus addresses and whose modified points have values that can be encoded", "the adversary chooses the device's behaviour",
  [f"{C}:ClientDevice.read,ClientDevice.write,ClientDevice.scan,ClientModel.read_points,ClientModel.write_points", f"{M}:ModbusClientRTU._read,ModbusClientRTU._write,ModbusClientDeviceTCP._read,ModbusClientDeviceTCP._write"])
p("A device that does not answer gives no values and no models",
  "If the device does not answer (no byte comes back, connections are refused or closed), read_points of a model raises and leaves the model unchanged, write_points of a model with modified points raises, and scan raises and adds no models.",
  "all silent devices (RTU and TCP), models that have a definition and at least one register, scans", "all ways of not answering, all models and states",
  [f"{C}:ClientDevice.scan,ClientModel.read_points,ClientModel.write_points", f"{M}:ModbusClientRTU._read,ModbusClientRTU._write,ModbusClientDeviceTCP._read,ModbusClientDeviceTCP._write"])
p("Scan adds only models that the device has announced, where it has announced them",
  "Whatever the device does, and whether or not scan ends with an exception, the models that it adds follow each other without gaps from one of the base addresses on, where the device has answered SunS; each has the id and the length that the device has answered for it in this scan and lies right after its header of two registers. The scan takes at most one read for each base address, two for each model found, and one more.",
  "all devices, definitions, progress callbacks and failure points", "the adversary chooses the device's behaviour; all failure points",
  [f"{C}:ClientDevice.scan"])
p("The models found do not overlap",
  "The registers of the models that scan finds, headers included, are all different.",
  "all devices, definitions, progress callbacks and failure points", "the adversary chooses the lengths",
  [f"{C}:ClientDevice.scan", f"{D}:Model.load"])
p('A program cannot tell a serial line from a network connection',
  'If the same registers are offered by a conforming RTU slave and by a conforming TCP server, every program that scans, reads models and devices, assigns values and writes models and points sees the same in both cases: each call returns or raises alike, and base address, models and values after each call are the same; the registers are the same in the end.',
  'all conforming slaves and servers (any fragmentation), register contents, definitions, and programs that choose each call by all they have seen', 'unbounded adaptive programs on two transports',
  [f"{C}:ClientDevice.scan,ClientDevice.read_points,ClientModel.read_points,ClientModel.write_points,ClientPoint.write", f"{M}:ModbusClientDeviceRTU,ModbusClientDeviceTCP"])
p('Writing back what has been read changes nothing',
  'After model.read_points(), assigning to any set of points the values they have (point.value = point.value) and model.write_points() returns, leaves every register of the device as it was, and leaves the model as it was after the read.',
  'all devices that behave like a memory, register contents, models, scale factors and sets of points that have values', 'all register contents and definitions; float rounding of every scaled value',
  [f"{D}:Point.value", f"{C}:ClientModel.read_points,ClientModel.write_points"])
p('Programs using different devices of one serial line do not disturb one another',
  'When several programs share a serial line, each with its own ClientDevice for its own slave id, and their calls (scan, read_points, write_points, point.write, assignments) come in any order, each program sees exactly what it sees when its device is alone on the line: the same outcome of every call, the same models and values; each device receives exactly the requests of its program and ends in the same state, and devices nobody uses are not touched.',
  'all families of devices on the line (conforming or not), all adaptive programs, all interleavings of their calls, all initial states', 'ranges over all schedules of all adaptive programs and all device behaviours',
  [f"{M}:ModbusClientRTU._read,ModbusClientRTU._write,ModbusClientRTU.read,ModbusClientRTU.write", f"{C}:ClientDevice.read,ClientDevice.write,ClientDevice.scan"])
p('Modified points next to each other are written together',
  'model.write_points() makes one write for each longest run of modified points of a block whose registers follow each other, in the order of their addresses in the block, each carrying the complete data of all points of its run; when it raises, the writes made are those of the first runs; when it returns, all runs have been written. So no point is ever split over two writes, and points set together that lie next to each other reach the device in one request.',
  'all models, all sets of modified points and values, all devices and their reactions, every point of failure', 'all sets of modified points of all definitions, all failures',
  [f"{C}:ClientModel.write_points", f"{M}:ModbusClientRTU.write,ModbusClientRTU._write"])
p('Cancelling a scan',
  'A scan with a progress callback does exactly what the scan without one does as long as the callback allows every model; when the callback refuses, scan raises SunSpecClientError, the models found are the first of those that the scan without a callback finds, in the same order, and the requests sent are the first of its requests. No model is added that the callback has not allowed.',
  'all devices and their reactions, all definitions, all callbacks (as functions of the models found so far and the next id)', 'all devices, all points of cancellation',
  [f"{C}:ClientDevice.scan,SunSpecClientDevice.__init__"])
p('Reading takes few requests',
  'Whatever the device answers: reading n registers sends at most one request for each max_count registers begun; scanning a device sends at most one request for each base address probed, two for each model found, and one more; read_points() of a model whose points are in order sends at most one request for each 42 registers begun, and read_points() of the device at most the sum of these. With C70 this bounds the time a call can take on a slow or silent line.',
  'all slaves and servers and their reactions, all definitions with points in order, all models and histories of values', 'all devices, all definitions; worst case over all of them',
  [f"{M}:ModbusClientRTU.read,ModbusClientDeviceTCP.read", f"{C}:ClientDevice.scan,ClientDevice.read_points,ClientModel.read_points", f"{D}:Model.load"])
p('Scaled values keep their order',
  'If two numbers are assigned to a point, the larger one never stores the smaller integer, whatever the scale factor and whether they are given as int, float or text; and of two registers the larger one never reads as the smaller value, and different registers of up to 32 bits read as different values. Thus a limit set in engineering units is never crossed by rounding in the wrong direction relative to another setting.',
  'all numbers, all scale factors from -250 to 250, all correct pow() libraries, all registers of at most 64 bits (distinctness: 51 bits)', 'pairs of real numbers and all scale factors; rounding to doubles at binade boundaries',
  [f"{D}:Point.value_getter,Point.value_setter"])
p('No torn points',
  'The registers of a live device change between requests. Whatever they do, after read_points() of a model the value of each point is one that its registers had together at one moment during the call: no 32 or 64 bit value or text is put together from registers of different moments. If the model has at most 125 registers, all its values and scale factors are of one moment. A value and its scale factor should be of one moment too.',
  'all histories of the registers (an arbitrary memory at each request), all models loaded from definitions whose points lie in order, RTU slaves in any fragmentation, TCP servers in any segmentation with or without open connection', 'the device changes concurrently with the read; the histories are infinite in number',
  [f"{C}:ClientModel.read_points", f"{D}:Model.load", f"{M}:ModbusClientRTU.read,ModbusClientDeviceTCP.read"])
p('Clients do not disturb each other',
  'Several clients may use one device at the same time. Whatever others do to other registers between the requests of write_points(), it stores the modified points of this client; and if two or more clients call write_points() at the same time and no two have modified points with common registers, then in whatever order the device receives their requests all of them succeed and at the end the modified points of all are stored and nothing else has changed (in particular no client puts back old values of points that it has not modified).',
  'all interleavings of the requests, all behaviours of others between requests that leave the modified points alone, all models and sets of modified points, mapped, RTU and TCP devices', 'the number of interleavings is exponential in the number of requests; others may do anything',
  [f"{C}:ClientModel.write_points,ClientDevice.write"])
p('What works on a simulated device works on a real one',
  'Let a program use a mapped (simulated) device whose registers are also registers of a real device, with the same contents. If no call of the program raises on the mapped device, the program sees the same on the real device (RTU or TCP): every call returns, and base address, models and values after each call are the same; and it stores the same registers.',
  'every program of scans, reads, writes and assignments that chooses its calls by what it has seen, every map, every conforming device whose memory contains the map', 'programs, maps and devices are unbounded; tests use mapped devices only and say nothing about real ones',
  [f"{C}:ClientDevice.scan,ClientModel.read_points,ClientModel.write_points", f"{M}:ModbusClientDeviceMapped,ModbusClientDeviceRTU,ModbusClientDeviceTCP", f"{B}:ModbusMap.read,ModbusMap.write"])
p('A device loaded from the PICS document of a device is equal to it',
  'Write the PICS document of a device and load a device from it. The two are equal: Device.not_equal returns False, in both directions.',
  'every list of models loaded with well-formed definitions and read once, any values that text can carry, any number of repeating blocks', 'definitions, values and numbers of blocks are unbounded; the test compares two documents only',
  [f"{D}:Device.to_pics,Device.from_pics,Device.not_equal,Model.not_equal,Block.not_equal,Point.not_equal"])
p('A map that cannot be built or loaded raises ModbusMapError, and what was in a map stays',
  'Constructing a map with an unknown function, loading a hex file and loading a document raise nothing but ModbusMapError; a map that cannot be loaded is left as it was, and registers already in a map keep their offsets and contents when more are loaded or added.',
  'every function name, document (any elements, attributes, texts), sequence of hexadecimal words, and map', 'documents and maps are unbounded; the tests load correct documents only',
  [f"{B}:ModbusMap.__init__,ModbusMap.from_xml,ModbusMap.from_hex,ModbusMap.regs_add,ModbusMapRegs.append"])
p('The text of a device tells its values',
  'str(device) has a line for every point of every loaded model with its id, address and value; two devices with the same models, blocks and points whose texts are equal have the same values and scale factors.',
  'every pair of lists of loaded models, any definitions, any number of blocks, any values', 'the values, models and numbers of blocks are unbounded; no test looks at the text',
  [f"{D}:Device.__str__,Model.__str__,Block.__str__,Point.__str__"])
p('A device never holds more than one socket',
  'After any history of connect, close, read, write, scan, read_points and write_points calls on one TCP or TLS device, at most one of the sockets the device created is still open, and close() leaves none open, even if some of the calls raised.',
  'every sequence of calls, every server (refusing, silent, failing at any point), every outcome of certificate files and handshakes, every program that chooses its calls by what it has seen', 'the number of calls and the failures of the network at any point of the history are unbounded; tests use one connection to a fake socket that never fails',
  [f"{M}:ModbusClientDeviceTCP.connect,disconnect,read,write,close", f"{C}:ClientDevice.scan"])
p('Scripting devices do not affect each other',
  'A program that creates several SunSpecClientDevice objects and uses them in any order sees of each device what it would see if that device were the only one in the process, although the classes of the model objects are shared between all devices.',
  'every sequence of creations and uses of devices, any models in any order, any definitions', 'the classes Model<id> are globals of the module that every creation of a device changes; an error shows only after a history of creations, and tests create one device per process',
  [f"{C}:model_class_get", f"{C}:SunSpecClientDevice.__init__", f"{C}:SunSpecClientModelBase"])
p('The texts of definitions and maps tell their contents',
  'If str() of two model definitions is the same text, the definitions have the same id and length and the same blocks with the same points (id, offset, type, length, scale factor, access, mandatory). If str() of two register maps is the same text, they have the same slave id, function, base address and register blocks (offset, count, access). The same for symbols (id and value).',
  'all definitions and maps, with any number of blocks and points, whose names have no blanks or line ends', 'that no two different definitions have the same text is a statement about all pairs of definitions',
  [f"{D}:ModelType.__str__,BlockType.__str__,PointType.__str__,Symbol.__str__", f"{B}:ModbusMap.__str__,ModbusMapRegs.__str__"])
p('suns.py shows the registers of the device',
  'Given the options of a device that is reachable and whose models can be shown, the command suns.py prints one section for each model in the device, in order, with one line for each implemented point, showing the value in the registers; it changes no register and ends normally. If there is no SunSpec device, or the device object cannot be created (unknown transport, serial port that cannot be opened, no map file), it prints a message and ends with exit status 1. The script uses the device that the options describe. The command never ends with a traceback.',
  'all devices (RTU, TCP, mapped), register contents, models and definitions, options', 'the composition of the options, the scan, the read and the report must be right for every device and every content of its registers',
  [f"{C}:SunSpecClientDevice.__init__,SunSpecClientDevice.read,ClientDevice.scan", "scripts/suns.py:__main__"])
p('Noise on the serial line never gives wrong values',
  'On a serial line on which requests and replies are disturbed (up to three wrong bits, any odd number of wrong bits, any burst of at most 16 bits), lost or cut off, reading and scanning never change a register of the device; a read returns the contents of the registers or raises; read_points gives the points the values of their registers, or raises and leaves them as they are; a scan finds the first models of the chain in the device, all of them if it returns; a write that returns has stored all its data, one that raises a beginning of it, and nothing else.',
  'all devices, models, definitions, register contents, requests, disturbances of each request and reply, fragmentations', 'noise hits any bit of any frame of any content',
  [f"{M}:ModbusClientRTU._read,ModbusClientRTU._write,computeCRC", f"{C}:ClientModel.read_points,ClientDevice.scan"])
p('Every call ends after a bounded number of waits',
  'Whatever is connected to the serial port or answers on the network - even something that never stops sending, or sends single bytes just before the timeout - every read, write, read_points, write_points and scan ends. A read makes at most 260 calls of serial.read (RTU) or 65541 calls of socket.recv (TCP) for each 125 registers begun, a write at most 8 (RTU) or 65541 (TCP) for each 250 bytes begun; read_points and write_points are bounded by the lengths of the models and of the modified points, and a scan by the number of base addresses plus 65535 requests. As each of these calls lasts no longer than the timeout, no device can hang the application.',
  'all ports and networks that decide anew at every single call what they return (endless ones included), all requests, models, definitions and callbacks', 'adversarial, endless input',
  [f"{M}:ModbusClientRTU._read,ModbusClientRTU._write,ModbusClientDeviceTCP._read,ModbusClientDeviceTCP._write", f"{C}:ClientDevice.scan,ClientModel.read_points,ClientModel.write_points"])
p('A scan uses the definitions that are in the files, whatever was loaded before',
  'Scanning a device gives the models their definitions from the definition files: for each model found, the file smdx_<id>.xml in the first place of the path list that has it, else in the current directory, else in the directory of the package, and what the definition says is what the first model element of that document says. What has been loaded earlier in the same process - by any sequence of requests, with any files and path lists at the time - makes no difference to the result of a scan, and a definition that is asked for after the scan is the same again; in particular the objects of a scripting device have the attributes of the definitions their models were loaded with, and if its scan fails the device is closed. check_for_models raises exactly if the common model has no definition.',
  'all file systems, path lists, definition documents, histories of requests for definitions, devices, callbacks', 'quantifies over file systems and histories of a global dictionary',
  [f"{D}:model_type_get,check_for_models,Model.load", f"{C}:ClientDevice.scan"])
p('A PICS document is found by name, loaded, or refused with a SunSpecError',
  'from_pics with a file name reads the document in the first place of the given path list that has it, else of the general path list, else in the current directory (an empty file counting as none) and adds the models in it, with the definitions in the files, independently of what has been loaded before. If it cannot be found, read or parsed, or anything in it is wrong, there is a SunSpecError and nothing else.',
  'all file systems, path lists, documents, definitions, histories', 'quantifies over file systems, documents and histories',
  [f"{D}:Device.from_pics"])
p('The conversion functions for 64 bit numbers are exact',
  'u64_to_data and data_to_u64 are inverse to each other between the integers from 0 to 2^64 - 1 and the byte strings of eight bytes (big-endian); float_to_data gives the IEEE 754 representation of every float and data_to_double gives the float back, with its sign and also if it is subnormal or infinite, and None for a NaN; float32_to_data gives the nearest single. Other integers, other values and byte strings of other sizes are refused with struct.error.',
  'all integers, all floats, all byte strings', 'quantifies over all 2^64 byte strings and all numbers',
  ["sunspec/core/util.py:data_to_u64,u64_to_data,data_to_double,float_to_data,float32_to_data,data_to_float"])
p('No point is left half written',
  'Whatever goes wrong while write_points is running (the device is switched off, requests or replies are lost or cut, the connection is refused or closed, the program is stopped between two requests), the registers of every modified point hold the old value or all of the new value, and no other register has changed; if write_points returns, the registers of all modified points hold their new values.',
  'all models and values, all memories, all RTU and TCP devices that execute or lose requests as they like, all sequences of faults', 'quantifies over all crash points and all sequences of faults',
  [f"{C}:ClientModel.write_points", f"{C}:ClientBlock.write_points", f"{M}:ModbusClientRTU.write", f"{M}:ModbusClientDeviceTCP.write"])
p('Threads sharing a serial line',
  'If devices on the same serial port are used from several threads, so that the calls of the port by the threads come in any order: every read and write still ends after a bounded number of waits; a read returns only data that it has received, after its own requests, in complete reply frames with the right CRC; and as long as the other threads do not write the same registers, write_points leaves no point half written, and if it returns, all modified points have been written. If no thread writes, a read that returns gives the registers asked for.',
  'all interleavings of the port calls of any number of threads, all requests of the other threads, all replies', 'quantifies over all schedules',
  [f"{M}:modbus_rtu_client,ModbusClientRTU._read,ModbusClientRTU._write", f"{C}:ClientModel.write_points"])
p('Copying settings from one device to another',
  'After reading the same model of two devices, assigning to any set of points of the second the values of the same points of the first (b.value = a.value) and write_points() returns; the points then have, in the second device, the registers they have in the first if the scale factors are the same, and, whatever the scale factors, when read again values that differ from those in the first by at most the resolution (power of ten) of the second; all other registers and points of the second device are unchanged.',
  'all pairs of devices that behave like memories, register contents, models, addresses, scale factors and sets of points', 'quantifies over all register contents, models and selections',
  [f"{D}:Point.value", f"{C}:ClientModel.read_points,ClientModel.write_points,ClientPoint"])
p('Reading forgets the past',
  'Whatever a program has done with a model since it was loaded (assigned values, read it while the device had other contents, failed reads, writes that returned or raised, in any order and number), the next read_points() sends the same requests and returns or raises exactly as it would for the model as loaded, and if it returns, every point has the same value_base, value_sf and value as if nothing had happened before; so two programs with different pasts that read the same device see the same.',
  'all devices that deliver what is requested or raise (mapped, RTU, TCP), models, histories of operations including failures, and states of the device', 'quantifies over all histories of a model object and all device states',
  [f"{C}:ClientModel.read_points,ClientModel.write_points,ClientPoint.write", f"{D}:Point.value"])
p('A simulated device that has been saved behaves as before',
  'Two mapped (simulated) devices whose maps hold the same registers are interchangeable, whatever the base addresses and blocks of the maps: every program of scans, reads, assignments and writes sees the same on both and leaves the same registers. In particular the map of a simulated device can be written to an XML document at any time, and a program that goes on with the map loaded from it sees the same as one that goes on with the original map.',
  'all maps, all programs before and after saving that choose their calls by what they have seen', 'quantifies over all maps and all programs, with unbounded numbers of calls',
  [f"{B}:ModbusMap.read,ModbusMap.write,ModbusMap.to_xml,ModbusMap.from_xml", f"{M}:ModbusClientDeviceMapped", f"{C}:ClientDevice"])
p('A line that breaks',
  'Whatever a serial port or a socket raises, at whatever call of its operations (an adapter that is unplugged, a connection that is reset, a socket that cannot be created or closed): every call of the API ends after a bounded number of waits; the user sees SunSpecClientError; and once the line works again, so does the client: every program sees what it would see if the line had never failed. A client without a connection of its own has none after a call, so that the next call starts afresh.',
  'all ports and networks whose operations may raise any exception at any call, all states, programs and devices', 'quantifies over all points at which a line can fail, all exceptions, and all programs afterwards',
  [f"{M}:ModbusClientRTU._read,ModbusClientRTU.read,ModbusClientRTU._write,ModbusClientRTU.write", f"{M}:ModbusClientDeviceTCP.connect,ModbusClientDeviceTCP.disconnect,ModbusClientDeviceTCP._read,ModbusClientDeviceTCP.read,ModbusClientDeviceTCP._write,ModbusClientDeviceTCP.write", f"{C}:ClientDevice.read,ClientDevice.write,ClientDevice.scan"])
p('A simulated device shows what its map document says',
  'ClientDevice(MAPPED, name=..., pathlist=...) looks up the map document in the first place of the path list that has it, or opens the file of that name if no path list is given. If the document describes registers, the device has exactly these registers at its base address: scanning it finds the models that the registers announce, each with the definition in its file whatever was loaded before, and reading gives each point the value that the registers of the document have. A document that is not found, cannot be read, is not XML or has overlapping registers raises SunSpecClientError; the serial ports are not touched.',
  'all file systems, path lists, map documents, definition files and histories of requests for definitions', 'quantifies over all documents, path lists and file systems and composes loading, scanning and reading',
  [f"{B}:ModbusMap.from_xml", f"{M}:ModbusClientDeviceMapped.__init__", f"{C}:ClientDevice.__init__,ClientDevice.scan,ClientDevice.read_points"])
p('An assignment is sent at most once',
  'A program uses a model object in any way: it assigns point values, reads the model, calls write_points, writes single points, and any of these calls may raise. A register of a point goes out in a write request at most once for each assignment to that point, plus once for each time the point is written alone, and once for each write_points that raised; registers of points that have never been assigned are never sent. In particular calling write_points again, or reading in between, sends nothing again.',
  'all devices (with any behaviour and any change of state between the calls), all models whose points have the length of their type and no common registers, all programs (any number of assignments, refused assignments, reads, writes, failing writes, single writes), all points and registers', 'a test tries a few sequences of calls with a device that works; the claim is about every sequence, with failures at any request',
  [f"{C}:ClientModel.write_points", f"{C}:ClientPoint.write", f"{D}:Point.value_setter", f"{C}:ClientModel.read_points"])
p('A reader sees old or new values while another client writes',
  'While one client calls write_points, others call read_points on their own objects of the same model. Whatever requests of the writer the device has executed at each moment, each read returns; a point that the writer has not modified, and each scale factor, has its old value; a modified point has its old value or exactly the value the writer is storing, never a mixture; the new one if the writer has finished before the read begins. A read that begins after another one has ended never shows an older value than that one.',
  "all devices that answer each request from their registers at that moment (RTU and TCP, any fragmentation), all register contents, all models, all sets of modified points and values, all paces at which the writer's requests arrive (including stopping before the end), all readers", 'a test can fix one interleaving of a reader and a writer; the claim is about every moment at which each of the requests may be executed',
  [f"{C}:ClientModel.read_points", f"{C}:ClientModel.write_points", f"{M}:ModbusClientDeviceTCP.read", f"{M}:ModbusClientRTU.read"])
p('Clients that write the same points leave complete values of one of them',
  'Any number of clients of one device call write_points at the same time, each on its own object of the same model, and several of them may have modified the same points. In whatever order the device executes their requests, and wherever any of them stops, every request succeeds; the registers of a point are unchanged or hold exactly the value that one of the clients has assigned to it - the latter if one of the clients that modified it has finished -, never a mixture of two values. A client whose requests all come last leaves its own values. Registers of points that nobody has modified do not change. Who reads the model meanwhile sees for each point its old value or the one of a client.',
  'all devices that behave like a register memory (simulated, RTU, TCP), all register contents, all models, any number of clients with any modified points and values, all interleavings of their requests, all prefixes', "a test can fix one order of two clients' requests; the claim is about every interleaving of any number of clients",
  [f"{C}:ClientModel.write_points", f"{C}:ClientModel.read_points", f"{C}:ClientPoint.value_setter"])
p('A decimal setting arrives exactly',
  'A program reads a model, assigns to any set of its integer points decimal numbers with the digits that the scale factor of the point allows (12.34 with the scale factor -2, 1500 with the scale factor 2; as a float, an int or a text), and calls write_points: it returns, the registers of each of these points hold exactly the integer n for which the number is n * 10^sf, all other registers are as before, no point is marked as modified any more, and the value of each point is the number that was assigned.',
  'all devices that behave like a register memory, register contents, models, sets of points, scale factors from -250 to 250, all integers the point type can hold (up to 48 bits with a scale factor), all pow() libraries accurate to one unit in the last place', 'decimal numbers are not doubles: whether two roundings meet the intended integer is a question about every integer, scale factor and power library',
  [f"{D}:Point.value_setter", f"{D}:Point.value_getter", f"{C}:ClientModel.write_points", f"{S}:suns_to_int"])
p('A failed call says why',
  "A scan that finds no SunSpec register map fails with a SunSpecClientError whose text is 'Device responded - not SunSpec register map' if the device answered at one of the base addresses, otherwise 'Modbus read error: ' and the text of the error of the first base address ('Response timeout' for an RTU slave that does not answer, 'Modbus exception c' for one that answers with exception c). Whatever else scan, read_points or write_points tell in a SunSpecClientError about the device is true: a Modbus error told by scan is that of one of its reads, one told by read_points or write_points that of the last request, the earlier ones having succeeded; 'Device scan terminated' is told only if the progress callback ended the scan. The command suns.py prints the text of a failed scan after 'Error: ' and exits with 1.",
  'all devices, texts of errors, base address lists, model definitions, progress callbacks, models; all points at which a request fails', 'the text depends on the whole history of answers at the base addresses and of failing requests at any point of a scan, read or write',
  [f"{C}:ClientDevice.scan", f"{C}:ClientDevice.read", f"{C}:ClientDevice.write", f"{C}:ClientModel.read_points", f"{C}:ClientModel.write_points"])
p('Threads sharing a connected TCP device',
  'If a ModbusClientDeviceTCP that has been connected is used from several threads, so that the calls of its socket come in any order, each read and write still ends after a bounded number of waits; a read that returns gives the registers asked for if no thread writes; and as long as the other threads do not write the registers of the modified points, write_points leaves each of them with its old or its new value, changes no other register, and has written all of them if it returns.',
  'all networks with a server that executes the requests sent to it, all schedules of the socket calls of the other threads, all models; all points at which a call fails', 'every interleaving of the socket calls of the threads, at any failure',
  [f"{M}:ModbusClientDeviceTCP.read", f"{M}:ModbusClientDeviceTCP.write", f"{C}:ClientModel.write_points"])
with open(os.path.join(os.path.dirname(__file__), "..", "properties.jsonl"), "w") as f:
    for x in P: f.write(json.dumps(x) + "\n")
print(len(P))
