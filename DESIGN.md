# Formal model of sunspec/pysunspec in Lean 4

The model is a shallow, executable transcription of the Python sources in `/repo/sunspec/core` and
`/repo/scripts/suns.py` (Python 3 semantics). Exceptions are values (`Py α = Except Exc α`; one constructor of
`Exc` per Python exception class), mutation is state passing: an operation on a state returns the new state *and*
the result, so that what a call has done before it raised is visible. `for` loops are structural recursions,
`while` loops recursions on fuel; fuel that is used up is the distinguished outcome `diverge`, and either a
theorem says that it does not occur for the fuel given (C09, C15, C29, C39) or a witness that it does (C29_violated).

## Layout

* `lean/Verif/Py/*`     Python primitives (bytes, `struct`, `int(text, 0)`, dictionaries, floats, element trees).
* `lean/Verif/Model/*`  the model: one file per Python area; every definition cites file:lines and says where it simplifies.
* `lean/Verif/Spec/*`   small specifications that do not use the model's helpers (register memory, conforming Modbus slave
  and server, CRC-16, layout of models, texts, histories, ...).
* `lean/Verif/Lemmas/*` helper lemmas.
* `lean/Verif/Props/*`  the property theorems, named after the property (`C01_...`); an `example` beside each shows that a
  concrete, non-trivial case meets its hypotheses. `Cxx_full : Prop` is the full statement of a property of which only
  a part is true; the proved part is `Cxx_..._partial`, the refutation `Cxx_violated : ¬ Cxx_full` (or a named
  witness theorem).
* `tools/` generates `properties.jsonl` (`gen_properties.py`), `MANIFEST.json` (`gen_manifest.py`, `status.py`) and
  `AXIOMS.md` (`gen_axioms.py`); `mutate.py` runs the wrong programs logged in `seeded/LOG.jsonl`; `coverage.py` lists the
  functions of /repo that no definition cites.

## Plan per property

What is modelled for each property and how it is proved. "refuted in part" means that the code in /repo does not have the
property for every input: the witness is a theorem, and the property is proved for the remaining inputs (the exact
condition is in `MANIFEST.json` and in the theorem). No property was found impossible to express.

| id | modelled code | how proved | outcome |
|----|---------------|------------|---------|
| C01, C02 | util.py codecs, suns.py `suns_point_type_info` | big-endian codec lemmas over all integers and byte strings | proved |
| C03 | suns.py `suns_is_impl_*`, decoders | case analysis per type | refuted in part: 64 bit unsigned values from 2^63 on are decoded as negative |
| C04, C05 | `str_to_data`, `data_to_str`, `eui48_to_data`, the encoders as called by the write path | list lemmas | refuted in part: strings of fewer than 8 registers get a byte too many; eui48 values cannot be written |
| C06 | `data_to_ipv6addr`, `ipv6addr_to_data`, eui48 functions | hexadecimal text round trip | proved |
| C07, C08 | `computeCRC`, `checkCRC`, the generated table | table = bitwise step; linearity over GF(2); injectivity of the shift step | proved |
| C09–C12, C14 | modbus/client.py `ModbusClientRTU` | loop invariants over the serial input cut in any way, for every slave strategy; refinement to register memory for conforming ones | proved |
| C13 | both clients | as above | refuted in part: slave id, function and byte count of replies are not checked |
| C15–C17, C53 | `ModbusClientDeviceTCP` | the same over TCP streams and connection states, all histories of calls | proved |
| C18–C21 | `ModbusClientDeviceTCP` | invariants over connection states | refuted in part: writes of more than `max_count` registers raise; stale replies are accepted; a failed connect leaks and makes the device unusable |
| C22 | `modbus_rtu_client`, `..._remove`, `add_device/remove_device/close` | invariant over all open/close histories | refuted in part: equal slave ids on one port, double close |
| C23–C27 | modbus/mbmap.py | refinement to an address→byte memory; round trip by induction on the elements | refuted in part: float counts, failed writes that change registers, over-long hexadecimal elements, comparison of odd maps |
| C28–C31 | device.py `Model.load`, client.py block plan | induction over the load loop, tiling invariant | proved, except C29: repeating blocks of length 0 make `load` loop for ever |
| C32, C33, C55, C59 | client.py `read_points` | abstract device interface `MbDev`; instances for RTU, TCP and maps | C55, C59 proved; C32, C33 refuted in part by C03 and by an RTU reply of byte count 0 |
| C34, C50, C61 | device.py `Point.value`, suns.py `suns_to_*`, IEEE double and single rounding | rational arithmetic with explicit round-to-nearest-even; grammar of integer literals | C50 proved; C34, C61 refuted in part: scale factor 0 truncates, text that is no number empties a float point |
| C35–C37, C60 | client.py `write_points`, `ClientPoint.write` | runs of adjacent modified points, separation of points, histories | refuted in part: short strings overwrite the neighbour, marks are cleared before the request is sent, reads overwrite assigned values |
| C38–C40, C54, C58 | client.py `ClientDevice.scan` | induction over the chain of models; fuel = 2^16 steps suffice; request invariant | C58 proved; the others refuted in part: models of length 0, rescan, connection left open after a failed scan |
| C41, C42, C48 | pics and data record writers and readers, `not_equal` | round trip over element trees | refuted in part (see MANIFEST) |
| C43–C46, C49, C56 | util.py `PathList`, smdx.py, `model_type_get`, `from_smdx`, `fresh_file_pathlist` | list and text induction; validity of documents characterised exactly | C44, C46 proved; the others refuted in part |
| C47, C57, C65, C67 | client.py `SunSpecClientDevice` and the generated classes | refinement of attribute and item access to the point values, all programs | refuted in part: names of models and points that clash with attributes |
| C51, C52 | both clients, `trace_func` | corollaries and witnesses | refuted in part |
| C62–C64 | `connect` with TLS options, device constructors | state machine of the socket; all programs of calls | refuted in part |
| C66 | scripts/suns.py | induction over models, blocks and points | refuted in part: models of unknown type |

Later properties (C68 and up) are described in the table at the end of this file.

## Trusted base

* Lean 4.33.0's kernel, and Lean's elaborator for showing what has been stated.
* Axioms: at most `propext`, `Classical.choice`, `Quot.sound`, listed for every claimed theorem in `AXIOMS.md`. None of our own;
  no `native_decide`, no `bv_decide`. `decide` and `decide +kernel` occur only for closed witnesses (counterexamples and the
  examples beside theorems) and for finite side conditions such as the 256 entries of the CRC table; both are
  evaluated by the kernel.
* Mathlib: `Data.Int.Log`, `Data.Rat.Floor`, `Data.List.Forall2`, `Data.List.Nodup`, `Algebra.Order.*` and the tactics
  `linarith`, `norm_num`, `positivity`, `gcongr`, `field_simp`, `ring`. Their output is checked by the kernel.
* The reading of the Python code: that each definition in `Model/` behaves as the lines it cites. Nothing was run.
* The semantics given to what is not in /repo:
  * **Python**: `struct`, `bytes`, slices, dictionaries (insertion order), `int(text, 0)` (ASCII digits only, no limit of 4300
    digits), string formatting used by the code. Integers are unbounded as in Python.
  * **floats** (`Py/Float.lean`): IEEE 754 doubles as rationals, a second zero (-0.0), infinities and NaN with
    round-to-nearest-even. `math.pow(10, k)`, `float(text)` and `repr(float)` come from the C library: they are parameters
    (`FloatLib`) and theorems that need their accuracy say so as a hypothesis (`Spec.PowOK`: one unit in the last place;
    `exactLib` shows that the hypothesis can be met).
  * **serial line**: after each request the slave strategy gives the chunks that can be read until the next
    `flushInput`, or makes the write raise. **TCP**: a server strategy accepts or refuses connections and gives
    the chunks that arrive after each request; the rest stays in the connection. Both strategies have a state of any type and are
    arbitrary, so everything a device can do is covered except answering without having been asked (RTU: what arrives
    before `flushInput` is discarded; TCP: bytes that arrive before the first request on a connection) and the passing of time inside
    one call other than as a timeout. A failing `recv` is a `socket.timeout`, also where a real one would raise another `OSError`
    (connection reset); an exception raised by `serial.read` or `flushInput` itself (adapter unplugged) is not modelled on this level.
    Theorems about arbitrary Modbus devices (`MbDev`: C31-C33, C35, C36, C60, C68, C71, C76, C77, C81, C82, …) allow any exception in any call.
  * **TLS**: the facts about Python's `ssl` module listed at the head of `Model/Tls.lean`.
  * **XML**: `xml.etree.ElementTree` elements are trees; the text syntax (parser, serialiser, escaping) is not modelled. Pretty
    printing (`util.indent`, minidom) is modelled as the white space it adds to the tree.
  * **files**: a file system is a partial function from paths to directories, zip archives and contents that does not change
    during a call; symbolic links are not modelled.

## Modelled and not modelled

Modelled (file → module): `core/util.py` → Points, Paths, Data; `core/suns.py` → Points, Value; `core/smdx.py` → Smdx, Paths, Files;
`core/device.py` → Device, Value, Smdx, Pics, Compare, Paths, Files, Show, ShowType; `core/client.py` → Client, Scan, ClientDevice,
Wrapper, Classes, Script; `core/data.py` → Data; `core/pics.py` (constants only) → Pics; `core/modbus/client.py` → Crc, Rtu, Tcp, Wire
(call by call: every `read`/`recv`, each of which may time out, fail or give some bytes), Tls, Trace, Registry, ClientDevice, Devices;
`core/modbus/mbmap.py` → Mbmap, ShowType; `scripts/suns.py` → Script (the report), Command (options, devices, exit).
`tools/coverage.py` lists for each function of /repo whether a definition of the model cites it.

Not modelled: texts of error messages (except those of scanning, reading and writing models: C106); `scripts/pysunspec_coverage_report.py`, `setup.py`, `doc/`, the tests and their
fakes; `time.sleep` delays; threads, except those sharing a serial port (C96). The methods `ClientModel.load`, `ClientModel.__init__`, `ClientBlock.__init__` and
`ClientPoint.__init__` only call their base classes and are identified with them.

Simplifications are stated in the comment of each definition. The ones that matter most: the dictionaries `points`/`points_sf` of a
block are represented by lists (point ids are unique in a block: C46); a point's `addr`, a decimal text in the code that is only
used as `int(addr)`, is an integer; references between objects are replaced by values where nothing can change
the object referred to, and by indices where something can (serial ports, symbols, model objects of the scripting interface).

## Validation of the model

`Verif.Check.Tests` and `Verif.Check.DeviceTests` run the model on the inputs of the repository's own tests
(`sunspec/core/test`): the documents are translated to Lean terms by `tools/gen_docs.py` (`Verif.Check.Docs`), the kernel
evaluates the model on them and compares with what the tests expect of the code (codecs, RTU and TCP frames, register
maps and their XML form, definitions, PICS documents, scanning and reading a simulated device, scripting sessions, data
records). These are tests of the model's fidelity, not properties; no claim rests on them. Definitions that are not in the
repository (models 1 and 63002 of the submodule `sunspec/models`) are written by hand, and one point of model 63001 has
another type than in `test_device.py`, as said there.

## Later properties

| Id | Modelled | Proof | Outcome |
|---|---|---|---|
| C68 | `readPoints`, `readModels`, `mdlLoad` (Client, Scan, Device) | `Props/Failure.lean`: every loaded object has its points inside (`loadLoop_in`), so data of the right size decodes completely | proved for definitions that fit; `C68_misfit` shows the condition is needed |
| C69 | `readPoints`, `writePoints`, `scan` on `rtuDev`, `tcpDev` | `Lemmas/Errors.lean`: the exceptions of each layer, propagated through the loops (`readPoints_err`, `writePoints_err`, `scanBody_err`); witnesses by `decide +kernel` | partial: refuted as stated, exact classes proved |
| C70 | the same | `Props/Errors.lean`: `SilentDev`, shown for RTU and TCP, makes every loop raise | proved |
| C71, C72 | `scan`, `mdlLoad` on any device (Scan, Device) | `Props/Found.lean`: `Spec.recorded` wraps a device with a record of its reads, `scanLoop_recorded` by induction over the loop | C71 proved; C72 partial (length 0) |
| C73 | `scan`, `readModels`, `readPoints`, `writePoints`, `writePoint` on `rtuScanDev`, `tcpScanDev` | `Lemmas/Alike.lean`: simulation relation between two devices carried through every loop (`scanLoop_alike`, `wpBlocks_alike`, …), instantiated by comparing each request; `Spec/Alike.lean` has the adaptive programs | proved |
| C74 | `readPoints`, `getValue`, `setValue`, `writePoints` on any `IsMem` device | `Props/CopyBack.lean`: `copied_eq` (C34: getting and setting is the identity), `readback` (encoding inverts decoding), C35 for the frame | partial, `C74_violated` |
| C75 | a bus of arbitrary slaves (`Spec/Bus.lean`) under `rtuScanDev`, programs as in C73 | `Lemmas/Bus.lean`: the addressed device on the bus simulates the device alone (`OnBus`), lifted by the `Alike` lemmas of C73; induction over the schedule | partial, `C75_late_violated` |
| C76 | `writePoints` on an arbitrary device that records its writes | `Spec/Grouped.lean`: runs declared, not computed; `Lemmas/Grouped.lean`: loop invariant `Collected`; induction over points and blocks | proved |
| C77 | `scan` on an arbitrary device that records its reads | simulation of the scan by the scan whose callback always allows, induction over the models (`Props/Cancel.lean`) | proved |
| C78 | `rtuRead`, `tcpRead`, `scan`, `readPoints`, `readModels`, counting the frames sent | induction over the loops; for models an induction over the points with a bound for one read and for two reads in a row (`planCost_bound`) | proved |
| C79 | `setValue`, `getValue` with the float model of C34 | monotonicity of `round` and of rounding to 53 bits, binade by binade; distinctness from C34 (assigning the value read stores the register read) | proved |
| C80 | `readPoints` over `rtuDev`/`tcpDev` with a device that answers request k from an arbitrary memory `env k` | induction over the requests of a read, the reads of a model (C31, C32); violation: value and scale factor 125 registers apart | partial |
| C81 | `writePoints` on a device `disturbed` by arbitrary state changes; interleavings of the requests of C76 | a disturbed memory restricted to untouched registers is a memory (`IsMem`), so C35 applies; writes to disjoint registers commute pointwise | partial |
| C82 | programs (C73) on `mapScanDev` and on any device that is a memory containing the map | one-sided simulation (Lemmas/Mimic): whatever succeeds on the map succeeds on any IsMem device whose memory contains the map, through read_points, write_points, scan and whole adaptive programs | partial |
| C83 | `deviceToPics`, `deviceFromPics`, `deviceNe` | composition of the round trip C41 with the equality C48: same values and scale factors give EqualModel | partial |
| C84 | `mapNew`, `fromXml`, `fromHex`, `regsAdd` | induction over the elements: every step continues the registers | partial |
| C85 | `showDevice` | the text is cut at the separators, the texts of integers are injective; induction over points, blocks, models | partial |
| C86 | `tcpRun`, `tlsRun`, `converse` with ghost counters of sockets | invariant: opened = closed + (1 if a socket is held), kept by connect, disconnect, exchange, hence by all calls | proved |
| C87 | `classGet`, `wrapDeviceIn` (Model/Classes.lean): creation of devices over a dictionary of shared classes | simulation of the shared program by separate ones, with the invariant that every generated class is the one of its definition | partial: violated when definitions change (C87_violated) |
| C88 | `showType`, `showMap`, `showSymbol` (Model/ShowType.lean) | the texts are parsed back field by field: each field is a word followed by a separator | proved |
| C89 | `sunsMain`, `sunsRun`, `openDevice` (Model/Command.lean) | composition of C38, C47, C55, C66 and C64 | partial |
| C90 | `NoisyLine` (Spec/Noise.lean) around `serveRtu` | C08 for both directions; reads deliver at most what was asked for, and only the registers if as much; composition with read_points, scan, write_points | partial |
| C91 | call-by-call model of the clients (`Model/Wire.lean`) with a counter of the `serial.read`/`socket.recv` calls | induction on the receive loops, combined with the number of requests (C78); refinement between the two levels of the model (`C91_rtu_same`, `C91_tcp_same`) | partial |
| C92 | scan with definitions from files | Model/Files.lean threads the global dictionary of definitions (Model/Paths.lean) through `scan`; simulation against `scan` with the library in the files, invariant: the keys of the dictionary are ints, so it never answers a request | partial (C43): `C92_violated` |
| C93 | from_pics by file name | the lookup of device.py:131-155 and the loop over the models with the stateful lookup of definitions; simulation against `deviceFromPicsFile` | partial (C43): `C93_violated` |
| C94 | conversion functions of util.py that no point type uses (Model/Conv.lean, Py/Double.lean) | normal form of doubles (Lemmas/Double.lean, as for singles in C61), uniqueness of the denoted float | proved |
| C95 | write_points over unreliable RTU and TCP devices (Spec/Atomic.lean) | invariant of write_points: the memory is that after some of the requests sent, each of which stores whole points (runs of C76) | partial |
| C96 | the RTU client call by call (Model/Wire.lean) on a port that other threads use between any two calls (Spec/Threads.lean) | C91 applied to the shared port; induction over the receive loop; the shared port executes each write completely or not at all with respect to the registers the others spare, so that the invariant of C95 applies | partial |
| C97 | read_points on two devices, assignment through the value property, write_points (Spec/Transfer.lean) | C32 for both reads, C34 for getting and setting with two scale factors, C35/C37 for the write and the read after it; scale factors are stable because scale factor points are separate from the points written | partial |
| C98 | histories of a model object (Spec/Session.lean, Spec/Forget.lean) | the layout of a model is the same in all histories; read_points computes everything else from the data, by induction over points, scale factor points and blocks; the only thing a read can leave alone, value_sf of an unscaled point, is None in all histories | proved |
| C99 | two mapped devices, programs as in C73/C82, to_xml and from_xml (Spec/Reload.lean) | C23 makes reads and writes functions of the register memory, so that the devices are alike in the sense of C73; C26 for the document; that a map can be saved is invariant under writes | partial |
| C100 | the clients call by call on ports and networks every operation of which may raise (Model/Broken.lean, Spec/Broken.lean) | bounded waits: a port that raises is simulated by one that falls silent (Lemmas/Broken.lean), then C91; exceptions by induction over the loops and the lemmas of C69; recovery: in working states the port is that of a slave (Lemmas/Repaired.lean), so that the devices are alike in the sense of C73 | partial |
| C101 | the lookup of map documents and the constructor of mapped devices (Model/MapFile.lean), with the models of C25, C43, C64, C92 | composition of C25_load, C43_first, C92_found and C55_loaded; the library of definitions and the document are determined by the file system (uniqueness lemmas) | partial |
| C102 | log of the write requests of a program as an inductive relation (Spec/Sends) over the recording device of C76 | invariant: requests with data for a register, plus the mark of its point, are at most the steps that ask for them; per call through the runs of C76 and separation of the points | partial (short strings) |
| C103 | device whose registers at moment `k` are the old ones with the first `done k` requests of the writer executed (C80 and C81 combined); old and new value of a point | each point is read in one request (C80) and stored by one request (C76, C95), so at each moment its registers are the old or the new ones, and once new they stay new | partial (short strings) |
| C104 | requests of several clients with the numbers of the clients (C81), each client's being the first ones of its call (C76) | each request stores whole points (C95), at the same places in all objects of the layout; induction over the requests executed | partial (short strings) |
| C105 | the assignments (`settled`), `setValue`/`getValue` (Model/Value.lean), `writePoints` | C34 for the stored integer, C01 for its bytes, C35 for the registers | partial (value read back) |
| C106 | scan, read_points, write_points with the texts of their errors (Model/Reason.lean); `say` gives the text of a device's error | simulation (the same functions without texts); induction over the base addresses, the scan loop and the loops of write_points | proved |
| C107 | the socket level device (Model/Wire.lean) on a network on which other threads make any calls before each call (Spec/TcpThreads.lean) | invariant of the registers through the loops of send and recv; atomic writes as for C96; counterexample for reads | partial |
