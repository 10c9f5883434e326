# Formal model of JPEG-1992-lossless-encoder-core

## 1. What is modelled and how

The repository is a set of nMigen (Python HDL) modules.  Each module is a
synchronous Mealy machine.  The model gives, for every module, a structure of
its registers, their reset value, a combinational output function, and a
`step : State -> In -> State` function for one rising clock edge, written
branch by branch after the `elaborate` method.  Every definition cites file and
lines.  Modules are composed exactly as the integration modules wire them
(combinational wires are let-bound, registers step simultaneously).

Conventions

* nMigen arithmetic is exact on integers and `.eq` truncates to the width of the
  target.  Multi-bit signals are `Nat` and every truncation that can matter is
  written (`% 2 ^ w`).  One-bit signals are `Bool`.
* "Last assignment wins" is modelled by nested updates in source order.
* `m.FSM()` states are an inductive type.  A run is a list of inputs (one per
  clock cycle); theorems quantify over all lists, hence over all schedules.
* Widths, depths, pixels per step are parameters, constrained only by the
  assertions in the constructors (and the values the top-level `config`s allow).
* `SyncFIFOBuffered` is library code (nMigen).  Its semantics are taken from the
  generated netlist `verilog_src/lj92_pipeline_fifo.v` in the repository.

## 2. Specification

`Verif/Spec/*.lean` contains the small independent specification: bit lists
(MSB first), T.81 class / additional bits, default Huffman table as bit lists,
the predictor-1 four-component prediction of a raster image, code of an image,
a decoder, packing of bits into words, FF-stuffing and un-stuffing.

## 3. Proof plan per property

| id | model | proof |
|----|-------|-------|
| C01-C04 | difference, normalize (search trees), encode | arithmetic on bit sizes, table by `decide`, decoder round trip |
| C05 | SingleMerger tree | bit-list concatenation lemma, step lemma for flags |
| C06, C07 | both predictors + signals | history invariant by induction over accepted steps |
| C08, C09 | signals | counter invariant, induction over schedules |
| C10 | integration_1 | stage by stage token conservation + latency line |
| C11 | SyncFIFO/SyncFIFOBuffered | refinement to a list queue |
| C12 | integration_2 front | in-flight counting invariant |
| C13, C14 | converter, converter FIFO | conservation law of the bit stream; counting invariant |
| C15 | vbits_to_cbits | conservation law of the bit stream |
| C16-C21 | integration_3 | composition of the conservation laws; liveness by ranking |
| C22-C24 | fix_0xff, fix_0xff2 | packet/byte conservation; stuffing by induction |
| C25, C26 | markers | trace language by induction; witness |
| C27-C29 | force_end, auto_reset | induction over schedules |
| C30-C32 | beta / micro integration | composition; witnesses |
| C33-C36 | width converters | conservation law; liveness; witnesses |
| C37-C39 | AXI-lite register files | refinement of the cycle-level slave to a register map, by induction over cycle lists; completion by stepping |
| C40-C42 | DMA engines | counting invariants; progress on infinite runs under fairness; witnesses |
| C43-C45, C47-C49 | small modules, bridge, software driver | induction / witness |
| C46 | lj92.c decoder | refinement of the LUT decoder to the spec decoder, parser of the header, composed with C30 |
| C50 | beta integration | infinite schedules, ranking per stage |
| C51 | beta integration with its reset | induction over frames, state after reset = power-up state up to the dead memory contents |
| C52, C55, C56 | AXI-stream / LVDS integrations | composition of C33/C36 conservation laws with C51; for C56 over several frames (Proof/PackFrames, Props/LvdsFrames): after the end marker both buffers of the packer hold FFFFFFFFFF, the core is silent for five cycles, in which the packer drains, and if its output then looks at the wrong buffer it gets in step again within the start marker |
| C53 | core AXI-lite slave + auto reset | reachable witness with a protocol-conforming master |
| C54 | full-AXI integration | product of C40-C42, C35, C39 and the core; simultaneous invariant over all cycles without reset; the status word by counting bursts and completions; witnesses |
| C57 | beta/micro integration + force_end | counting invariant over the first accepted pixel |

Later rows are appended in section 6.

## 4. Trusted base

* Lean 4 kernel.  The only axioms any theorem depends on are `propext`,
  `Quot.sound` and `Classical.choice` (checked with `#print axioms`; vcheck does
  the same).  No axiom is declared, no compiled-code tactic is used.
* The reading of nMigen given in section 1: exact integer expressions,
  truncation on assignment, last assignment wins, FSM encoding, synchronous
  reset of every register of a domain except memories and memory read ports.
  `sync` and `full` share one clock and differ in their reset.
* The semantics of the nMigen library FIFOs (`SyncFIFO`, `SyncFIFOBuffered`),
  taken from the generated netlists in `verilog_src`.
* For C49 and C46 the reading of the C and C++ text: fixed-width unsigned
  arithmetic, two's complement `int`, little-endian memory.
* For C70 to C74, C78, C80, C81, C83, C87 to C91 and C94 the translator `netlist/v2lean.py` (about 600 lines of Python) and
  the reading of the Verilog subset Yosys writes: nets are unsigned and never x or z
  (out-of-range memory reads, which give x in Verilog, give 0), `casez` takes the
  first matching branch, all clocks are one clock.  The models of the nMigen
  sources do not depend on it; on the contrary, C70 compares the hand-written
  models of all modules of the beta core with the code nMigen generated, so that
  for these modules the reading of nMigen in section 1 is checked, not trusted.
  The netlists are regenerated with
  `python3 v2lean.py <netlist.v> <namespace> <out dir> [<base.v> <base namespace>]...`;
  with bases, a module whose text equals a module of a base up to the order of its
  lines and declarations is not translated again but refers to the first such base's definition.
* The specification in `Verif/Spec` and the statements in `Verif/Props`.

### Modelled

Every hardware module under `/repo/migen_src` that carries data:
difference, normalize, encode, merge, both predictors, signals, integration_1,
integration_2, integration_3, lj92_pipeline_fifo, converter, converter_fifo,
vbits_to_cbits, fix_0xff, fix_0xff2, markers, force_end, auto_reset,
beta_integration, micro_integration, b64_b32, b64_b32_2, b16_b64, b16_b40,
integration_3_axi_stream, beta_integration_axistream, micro_integration_axistream,
beta_integration_fifo_axistream, beta_integration_fifo_lvds,
beta_integration_fullaxi, core_axi_lite, dma_axi_lite, axi_lite (bridge),
axihp_fifo, axihp_reader, axihp_writer, address_generator, delayer, reverser,
constraints, debug_module, register_file, and the core with its AXI-lite
registers in place (C58).  Generated Verilog: all of
`verilog_src/beta_integration.v` (C70, C71), `beta_integration_axistream.v` (C72),
`beta_integration_fifo_axistream.v` (C73), `beta_integration_fifo_lvds.v` (C74), `beta_integration_fullaxi.v` (C78, its undriven
inputs `replace` and `replace$1` tied low), `micro_integration_axistream.v` (C80, its undriven
inputs `end_in` and `end_in$1` tied low), `integration_3_axi_stream.v` (C81), `integration_3.v` (C88), `integration_2.v` (C89), `micro_integration.v` (C90, its undriven inputs tied low), `integration_1.v` (C91), and the stand-alone
`delayer.v`, `reverser.v`, `debug_module.v`, `address_generator.v`, `b64_b32_2.v`, `b16_b40.v`, `axi_lite.v`,
`core_axi_lite.v`, `axihp_reader.v`, `axihp_writer.v`, `axihp_fifo.v` (C83), `difference.v`, `normalize.v`, `encode.v`,
`merge.v`, `predictor_p1_c4_px4.v`, `predictor_p1_c4_pix1_2.v`, `converter.v`, `lj92_pipeline_fifo.v`,
`converter_fifo.v`, `register_file.v` (C87); the remaining single-block netlists (`auto_reset.v`, `b16_b64.v`, `b64_b32.v`,
`dma_axi_lite.v`, `fix_0xff.v`, `fix_0xff2.v`, `force_end.v`, `markers.v`, `signals.v`, `vbits_to_cbits.v`) are, up to the
order of lines, the same text as the modules of that name in the whole-core netlists above.  Software: `software/src/core_axi_lite.cpp`; 
`liblj92/lj92.c`: the decoder and the encoder
(floats as IEEE singles rounded to nearest even, memory allocation succeeds, the
statistics array `sssshist` left out), and the memory accesses of the decoder including `sssshist` (C82) and of the encoder (C85);
`software/src/xilinx_test.cpp` (C60, C61) and the whole test program, `main` with `tools.cpp`,
`mmap_handler.cpp` and `xilinx_dma.cpp` as a sequence of loads, stores, system calls and messages (C84).

### How the model was compared with the authors' own data

Tests, not proofs, in addition to the comparison with the generated Verilog:
`Verif/Check/Traces.lean` (written by `validation/traces.py`) replays the simulation traces in
`/repo/simulations` on the models of signals, markers, difference, predictor, normalize, encode, merge, delayer and
pipeline FIFO; every recorded register and output value agrees in every cycle.
(`core_axi_lite_test_1.vcd` has two clocks of different phase and an address map older than the code.)
`validation/files.py` runs the model on the three images in `/repo/test_files`: `Spec.encode` gives exactly
`*_headerless_nofix.lj92`, `Spec.stuff` of it `*_headerless.lj92`, the cycle model of the beta core (with random stalls on
both sides) sends `*_headerless.lj92` between its markers, and the model of liblj92's decoder turns `*_pure.lj92` back
into the image.

### Not modelled

* the clock and reset generators (`clk_domains`), I/O pads and the LVDS
  serialiser outside the repository;
* `axi3_pkg`, `axi3_lite_pkg` and `config.py` (record layouts and constants;
  their values are parameters or constants in the model);
* in the test program the clock calls and the text of the byte dumps; the Xilinx DMA engine and the
  operating system (not in the repository: system calls may succeed or fail, register loads may give
  anything); destructors at the end of the process;
* metastability, timing, and initial values of memories (memory contents before
  the first write are arbitrary in the theorems).

## 5. Defects of the code found while proving

The properties state what holds; where the English expectation fails the
failure itself is proved (theorems with `limit`, `lost`, `lossy`, ... in their
name).

* C02: 16-bit samples: class 16 carries no extra bits and differences are not reduced modulo 2^16, so two pixels share a code.
* C09: frames of two steps never end, rows of one step are not marked.
* C25: a frame of one output word is swallowed by the marker stage.
* C26: markers' `valid` depends combinationally on `busy`.
* C31: the end-marker word may be transferred twice.
* C32: micro integration: the end flag is not connected and frame words are
  dropped during the start marker.
* C34, C35: a word offered in the first cycle after reset is accepted and lost;
  C35: the end flag is suppressed during the first seven words.
* C36: the 1-bit carry register `temp_8`, and a stale word after a frame reset.
* C37: `rvalid` waits for `rready` (forbidden by AXI).
* C38: writes of the high half of a table entry store zeros, a low-half write
  clears the high half (`core_axi_lite.py` 209, 261-265).
* C41: `rlast` without `rvalid` corrupts the burst count.
* C42: `wlast` is one beat late; beat 16 may come from an empty FIFO; a flagged
  beat may be withdrawn.
* C43: the two-stage delayer fires without input.
* C45: the width constraint accepts one width only.
* C46: `lj92.c` row buffers overlap for fewer than four samples per row and component.
* C48: overlapping read and write requests get the wrong id.
* C49: `get_ssss` omits the last class.
* C53: the frame-end reset breaks a register read in flight.
* C54: the frame-end reset clears the DMA engine: tail of the frame and start
  register are lost; burst limits never stop the engine; stale beats enter the
  next frame; error responses of the memory are ignored and the error bits of the
  status word are not latched (visible only when sampled in that very cycle).
* C78: the shipped netlist exposes two undriven control signals as inputs `replace`
  and `replace$1`.
* C80: the shipped micro netlist exposes the two undriven `end_in` signals (C68) as inputs
  `end_in` and `end_in$1`; `verilog_src/micro_integration.v`, without the stream wrapper, has no
  register-bus outputs at all (`arready`, `rdata`, `bvalid`, ... are not ports), so that its
  registers cannot be written by a master that waits for the handshake.
* C81: the four-pixel core between two AXI streams has no automatic reset: after the word with
  `m_tlast` it offers that word again in every cycle until `rst`, so that a receiver gets as many
  `m_tlast` words as it is ready for, and it takes no second frame.
* C83: the defects of C36 (`b16_b40` loses bits) and C42 (`axihp_writer` sets `wlast` one beat late) are in
  the shipped netlists too.
* C82: `lj92.c` reads up to two bytes beyond a legal file, writes behind a file that ends inside a Huffman
  table, follows an unchecked frame-header length, reads truncated files without end, dereferences a null
  pointer without a table and overruns `sssshist` for class 16 (on a 32-bit machine that is the table pointer).
* C56: a receiver that stalls corrupts bytes (through C36).
* C86: after a forced end the core does not resynchronise: the rest of the cut image is taken as the begin of the next
  frame, a pixel accepted in the reset cycle is lost, and no forced end comes before the first output word.
* C61: the test program does not compare the last byte of an odd-length reference and
  looks for the forced end marker in the wrong byte order.
* C84: the test program reads before the reference file if it is shorter than 256 bytes and behind the
  destination region if it is 2^25 - 15 bytes or longer, loads words at odd addresses of device memory in
  the marker search, never leaves the waiting loop when the DMA engine reports an error, and takes only
  the lower 32 bits of file sizes.
* C85: `lj92_encode` ignores `delinearizeLength`: the table is read at every sample value, inside or not; the write
  behind the output buffer of C62 is an access that happens.
* C62: `lj92_encode` does not check the final flush and the end marker against the
  allocated size (up to four bytes too many). `C62_overflow` proves that this happens: a
  legal row of 1209 16-bit samples is accepted and the file is one byte longer than the
  allocated buffer (heap overflow); `C62_refuses`: from 1248 samples on there are legal rows of every
  length for which it reports an error. With a delinearization table the
  histogram is taken from the raw values and wrong codes are written; the
  reserved code point has frequency 1.0, the largest possible, so the code is not optimal.
* C63: from 15 bits on class 16 can occur, is written with 16 extra bits, and
  indexes `sssshist[16]` out of bounds.
* C64: `parsePred6` reports corruption as soon as its read position reaches the
  end of the data although the remaining samples are buffered: one-row and narrow
  images made by its own encoder are refused; `writelen` 1 never skips; the
  linearization bound is tested with `>` instead of `>=` and not at all in row 0.
* C65: the shipped cycle limit (6666000 for 4096x3072 pixels, `register_file.py`) is below the
  number of output words a noisy image needs: images above about 8.5 bits per pixel always
  end by force, whatever producer and receiver do.
* C67: for more than one component the decoder is right only for predictor 1: the row
  buffers overlap, `left` is the sample of another component, and `parsePred6` ignores the
  number of components; no error is reported.
* C95: `lj92_open` refuses fill bytes before markers; `lj92_decode` uses the last Huffman table of the file for all
  components.
* C100: `lj92.c` with SLOW_HUFF reads outside its arrays when the table is empty (a legal file without samples) and on data that are not a code (`C100_empty_limit`, `C100_invalid_limit`); the normal build decodes the latter as class 0 without an error.
* C99: up to 139 words before the last one (528 pixels with the default table) can be missing in memory at the end of every frame (cf. C54).
* C98: the 40-bit packer is not emptied when a frame ends by force; up to three old words with the end marker come out in front of the next frame.
* C97: the decoder gives no error for a file whose code is cut or damaged: a frame ended by force becomes an image that is wrong from some pixel on. (It also reads behind the end of such a file; C97 takes that memory as readable, with any contents. Behind the damage class 16 of the default table, or an uninitialised look-up table entry, makes it write outside its class statistics: `C97_histogram_limit`.)
* C96: `lj92_open` writes into the file: the destination byte of every Huffman table becomes 0.
* C68: in the micro core the second stuffing stage is told `busy_in` instead of the marker
  stage's `o_busy` and no end flag is connected: one to ten words at the beginning of every
  frame are lost and every frame ends by force, with the last word repeated until then.
* C70: `fix_0xff2.py:196` clears `o_busy` after the statement that calls `normal_logic`,
  so by nMigen's rule it wins; in the shipped netlist the assignment comes before the case
  statement and loses.  The sources at this commit and the netlist therefore differ in
  states with `o_busy` set and no output word in the normal state; C70 proves that these states
  are not reachable, so the ports never show it.

## 6. Later properties

| id | modelled | proof |
|---|---|---|
| C58 | beta core with core_axi_lite and the table memory | run with per-cycle configuration; configuration-independence while no pixel is in the core; bus invariant of C38; then C30 and C57 |
| C59 | beta core with register_file | stepwise equality with the constant core after the first cycle, which is a not-ready cycle |
| C60 | `software/src/xilinx_test.cpp` 167-207 | loop invariants; bit algebra against the raw12 specification; then C52/C55 |
| C61 | `software/src/xilinx_test.cpp` 209-326 | loop invariants to an exact reading of the verdict; memory layout of a frame; C30; monotonicity of the decoder |
| C62 | `liblj92/lj92.c` 700-1190: frequency scan, code construction (K.1-K.3 of T.81 with floats), header, body | token view of the pixel loops; the merge loop keeps a forest whose leaves are the used classes, whatever the float comparisons give; Kraft sum through the length adjustment; no all-ones code; append-only writer against the stuffed bit string |
| C63 | the same | bounds on the prediction; class bound |
| C64 | `parsePred6`, `lj92_decode` | bit-buffer representation with end position; row and column induction; composed with C62 and with the header parser of C46 |
| C65 | `force_end.py`, `markers.py` behind the core | invariant tying words given to the age of the budget counter; frame structure of C28; the existence statement uses C50 |
| C66 | the core (`integration_3.py`) | invariant: short words everywhere, converter never leaves its burst, backlog of the converter FIFO at most 1 + 4 per busy cycle, with a credit per state of the packer's input FSM |
| C67 | `lj92.c` parseScan with all predictors and linearization | loop invariant over rows and columns (both row buffers, the image, the rest of the code) against table H.1 of T.81; header parser generalised; predictor 6 through C64 |
| C68 | micro_integration, micro_integration_axistream | conservation law from the core to the second stuffing stage without end flags; the words it gives are split in lost / in the frame / after the forced end by the marker state; rank argument of C50 for liveness; simulation of C29 |
| C69 | micro core with core_axi_lite and the table memory | the argument of C58 with the micro step, then C68 and C57 |
| C70 | `verilog_src/beta_integration.v`, every module, translated signal by signal by `netlist/v2lean.py` into `Verif/Netlist/Beta.lean`; the model of beta_integration.py with its register file and the external reset | per module: abstraction of the netlist's registers, register ranges, one-step simulation of the model's step (`Netlist/Int1`, `Int2`, `Int3`, `Back`, `Top`); then induction over the cycles, memories related by the simulation of C29 |
| C71 | the same netlist | C30, C50 and C57 carried over with C70; starts of frames (power-up, external reset, end word) described by what the ports show |
| C72 | `verilog_src/beta_integration_axistream.v` (module `top`; the others are those of beta_integration.v) | relation "shows what the model shows from here on", closed under steps, established from C70 and C29 at power-up and after an external reset; then C55, C51, C50 |
| C73 | `verilog_src/beta_integration_fifo_axistream.v` with its source | the same relation, registers of the unpacker one to one with the model of b64_b32_2; then C52 |
| C74 | `verilog_src/beta_integration_fifo_lvds.v` with its source | the same, with the packer one to one with the model of b16_b40 and the automatic reset tracked; then C56 |
| C75 | the core (`integration_3.py`) after the last pixel | lexicographic measure: weighted amount of code bits in front of each stage, then a rank of the state of the packer that drops in every cycle with a ready receiver |
| C76 | the core under a busy receiver, images of bounded local code length | potential argument: the backlog of groups in the code FIFO and the bits in the packer pay for every cycle in which the producer waits; each busy cycle adds at most four |
| C77 | the whole beta core under pauses and busy cycles, images of bounded code rate; transferred to the netlist by C70 | potential of stuffing and marker stages (busy cycles seen by the core are at most those of the receiver, one per two FF bytes, and ten), then C76 up to the last pixel, C75 up to the last word of the core, a rank function for the end of the marker stage; C30 and C57 exclude FFFE |
| C78 | `verilog_src/beta_integration_fullaxi.v`, every module (the core's are those of beta_integration.v) | per module one-step simulations (`Netlist/FullParts`, `FullParts2`), composed to one simulation of the model of the full-AXI integration over steps, power-up and resets; then C54 |
| C79 | the full-AXI design in a closed loop with a fair memory, infinite runs; transferred to the netlist by C78 | contradiction: if no end flag ever comes there is no reset, the start register keeps the command (C39), the reader and the writer make progress from every state (`read_live`, `write_live`), so the core is offered pixels and its words are taken again and again, and C50 gives the end |
| C80 | `verilog_src/micro_integration_axistream.v`, every module (those equal to modules of the beta netlist refer to these); the micro core with core_axi_lite, table memory and external reset (`Model/MicroAxis.lean`) | as C70, with a simulation of the register slave and the table memory in which the address latch of the read port counts only in the states that use it (`Netlist/MLite`, `MInt1`, `MInt2`, `MInt3`, `MBack`, `MTop`); C69 and its liveness carried over |
| C81 | `verilog_src/integration_3_axi_stream.v`, every module (those equal to modules of the beta netlist refer to these); `Model/Stream64.lean`: the four-pixel core with register file and both resets | as C70 (`Netlist/I3Int1`, `I3Int2`, `I3Int3`); C16 to C21 carried over from every start of a frame; the output FSM's last state is absorbing |
| C82 | `Model/Lj92Mem.lean`: the decoder of lj92.c once more with every memory access recorded and errors told apart from endless loops | erasure to the model of C46/C67; a program logic `Safe` (all accesses satisfy P, no endless loop) with loop rules; bit-buffer invariant `RepX` that bounds how far the reader passes the end of the code; witnesses for the limits |
| C83 | the eleven stand-alone netlists listed in section 4 (`Netlist/Alone`), those of the burst reader and writer wired to the FIFO netlist as in beta_integration_fullaxi.py | one-cycle simulation lemmas against the models (`Netlist/Alone/Small`, `CoreLite`, `Burst`), then C33, C36 to C38, C40 to C43 and C48 carried over to runs of the netlists |
| C84 | `Model/HostMain.lean`: `main` of xilinx_test.cpp and everything it calls, as a free monad of loads, stores, system calls, waiting loops and messages; runs are traces with memory effects, and may stop anywhere | weakest preconditions under a monitor of the trace (`Proof/HostLogic`), sound for all runs; one monitor for memory use (`HostInside`), one for the order of events and the printed verdict (`HostFlow`, `HostExam`); C61 and C30 for a correct core; existence of finishing runs for all contents of the destination (`HostLimits`) |
| C85 | `Model/Lj92EncMem.lean`: the encoder of lj92.c once more with every access to image, delinearization table, row cache, tables and output recorded | erasure to the model of C62; bounds of all table indices from the Huffman tree invariants (`Proof/Lj92EncSafe`), of the pixel loops from the cursor invariant of C62 (`Proof/Lj92EncScan`), projections of the trace to one array for the exact order; overflow witness from C62 |
| C86 | the beta core (`Model/Beta*`, as for C30–C36), several frames with any mixture of normal and forced ends | a frame always ends in the fresh state (`frames_fresh`, induction over frames), then C30; prefix lemma for the un-stuffed bytes of a forced frame; for a frame without pixel data the invariant `Cam.Inv` shows no end is ever produced; endless frames by induction over frames with C50; netlist through `Behaves` (C72) |
| C87 | the ten stand-alone netlists of the pipeline blocks (`Netlist/Alone`), 16-bit pixels | one-cycle simulation lemmas against the models (`Netlist/Alone/Blocks`, `Blocks2`), then C02, C05 to C07, C11 and C13 carried over to runs of the netlists; the three coding stages wired one after the other |
| C88 | all of `integration_3.v` (`Netlist/I3.lean`) and `Model/CoreTop.lean`: the core with its register file and the forced-end counter at its port | the netlist's state is a state of the core inside `integration_3_axi_stream.v` (`Netlist/I3Top.lean`), so C81 carries over; the counter by C27 and its one-cycle simulation |
| C89 | `Int2` with an arbitrary reader; all of `integration_2.v` (`Netlist/I2.lean`) and `Core2` in `Model/CoreTop.lean` | the stream invariant `Int2.Inv` over runs with an arbitrary `latch_output`; liveness by the well-founded arguments of C21 without the packer (`Proof/Int2Run`); netlist: exact one-cycle simulation (`Netlist/I3Int2`), fields mapped by `Netlist/I3Top` |
| C90 | all of `micro_integration.v` (`Netlist/Micro.lean`) | the netlist's state is a state of the core inside `micro_integration_axistream.v` (`Netlist/MicroTop.lean`), so C80 carries over; the blind writes by symbolic execution of the register slave, which runs on its own while no word is taken |
| C91 | all of `integration_1.v` (`Netlist/I1.lean`), `Core1` in `Model/CoreTop.lean` | simulation of the netlist by the model, module by module (`Netlist/I1Sim.lean`); the slave is that of C80, now with its two resets apart; blind writes by symbolic execution; C10 and C27 for the frame |
| C92 | `Spec.encode`, the beta core and its netlist | code lengths class by class, counting zeros for the stuffing; extremal images given explicitly; C30 for the frame, and the invariant of C65 extended to forced ends |
| C93 | both register buses as for C37 and C39, without the restriction on the master | invariants of every history for the single-cycle responses and the starvation of writes; given masters that keep the rules of AXI, with every continuation, for the lost transfers |
| C94 | the FIFO stream core as for C52 and its netlist as for C73 | the words of the core are those of `Frames` (C86) for the inputs the width converter gives it; lower bound on the pixels from the converter's invariant (at most three half-words inside); netlist through `FnRel` (C73) |
| C95 | the decoder model of C46 and C67; files as lists of segments (`Spec/SegmentsAny`) | induction over the segments with the position as invariant (the decoder may stand before non-FF bytes of a table); loop invariant of the scan with `C` components, in which only the first `C` samples of the row above are kept; predictor 6 through C64; C30 for the core |
| C96 | the recording decoder model of C82, the files of C95 | the header proof of C82 for tables with any destination byte (the data changes, the position is the invariant); the code of differences of C82 with the class bound for `C` components; segments of C95 turned into markers with payload |
| C97 | the decoder model of C46/C95, files whose code is right for the first samples only; frames of C30/C86 ended by force | two invariants of the scan: while the code is right the bits of the rest are in the reader (as C95), afterwards only that every sample step is total, writes 16-bit values in its row and leaves the earlier samples; C30 gives the code of the accepted pixels as prefix of the body |
| C98 | the 40-bit core of C56/C74 over frames of both kinds | the packer as a machine whose contents are unknown at the begin of a frame: five quiet cycles drain it, the first eight words FFFF bring it in step (at most one more old word), from there on the queue invariant of C36; pixels, frames and liveness through the projection to the FIFO core of C94; the receiver by the byte groups of C56 |
| C99 | the full-AXI core of C54/C78 over frames of both kinds | body of the frame by C30, the pixels into the core are a prefix of the beats (C54), a longer image has a longer code (no code word is empty), so a prefix of the data decodes to what fits; memory = FIFO order with at most 32 words in the FIFO, two in the packer and an incomplete group behind it; the number of lost bits bounds the number of lost pixels |
| C100 | lj92.c with SLOW_HUFF (Model/Lj92Slow: tables, `nextbit`, `decode`, `receive`, both scan loops, with every access to a table checked) | the table loops of `parseHuff` compute the canonical codes; at the start of a code word the search ends at its length (smaller prefixes are above `maxcode`) with its class; then a simulation between the two builds: at the start of every difference both stand at the same bit of the code, though the normal one has read ahead |
| C101 | netlists of C70/C72/C73/C74/C78 and the decoder models of C95, C97, C100 | the words between the markers are a cut stuffed string (C30/C71, C99), a cut stuffed string contains the stuffed string of whole bytes up to its last byte (C97), so with a byte to spare the file is a file of the first `k` pixels; then C95/C97/C100; for the stream netlists: their words are those of a frame of the model of the core, of which the accepted pixels are the ones C72-C74 speak of, as both are the result of the same decoding; after forced ends the same with the frames of C86, C94 and C98 |
| C102 | model of C100 (`Model/Lj92Slow`), which checks every access to the arrays of the tables; bits of the data specified in `Spec/Unstuff` by the place of each byte | closed form of the Annex C codes for any counts (`firstCode`); invariant of the code search: the bits read so far are at least the next free code and match no shorter one; the differences are determined by the data, so the loops fail exactly if there are too few; samples by the row-buffer invariant of C95 over the list `Spec.rebuild` of the differences read; `_marker_limit`: the normal build looks for markers inside the table segment; `_builds_agree_any_data`: both readers stand at the same bit of any data (`Proof/Lj92FastAny`), a code found by the slow one is what the look-up table of the normal one holds; `_normal_any_data`: with it the normal build computes `Spec.rebuild` of whatever differences stand in the data, by the table of the header; `_uninitialised_limit`: where no code stands, the normal build uses the part of its table that it never filled (the model takes the memory from `malloc` as a parameter) |
