# Formal model of slowtec/ur20

The code under verification is a Rust library that maps the raw Modbus registers
of a Weidmueller UR20 fieldbus coupler to channel values and back. This directory
contains a Lean 4 model of it, written function by function, and theorems about
that model. `properties.jsonl` lists the properties in English, `MANIFEST.json`
maps them to theorem names.

## Layout

* `lean/Verif/Model/` – the model. Every definition cites the file and lines it models.
* `lean/Verif/Spec/` – small independent specifications used in theorem statements
  (bit tables, parameter range tables, the device at the other end of the serial
  protocol, exact rational formulas for analog values).
* `lean/Verif/Lemmas/` – helper lemmas.
* `lean/Verif/Props/` – one theorem (or a small group) per property, each followed
  by `example`s showing that a concrete non-trivial case meets its hypotheses.
* `lean/Verif/Instances/` – the theorems applied to written-out configurations and histories.
  The statement of each application has no hypotheses left, or only the ones its text names, so
  these files show that the hypotheses of the theorems can be met together.
* `lean/Verif/Source/` – the source of the crate translated to Lean by a program,
  `tools/rust2lean.py` (parser: `tools/rustparse.py`). All modules are generated except
  `Prelude.lean`, which gives the meaning of operators, casts, iterators, collections and
  loops. C134–C136 prove that this translation and the model agree.
* `lean/Verif/SourceTests/` – the 190 unit tests of the repository (653 assertions), translated
  by a program, `tools/tests2lean.py`, to calls of the translated source, and run by the kernel
  with and without overflow checks. Like the next item they are tests, not proofs.
* `lean/Verif/Conformance/` – all 190 unit tests of the repository, transcribed and
  evaluated on the model. They are tests of the model, not proofs: no property rests on
  them. They narrow the one gap the kernel cannot close, that the model is the code.

## How the code is modelled

* `Res α = ok a | err e | panic`. `Result` errors become `err`, every reachable
  panic (out-of-bounds index, `expect`, `panic!`, overflow with overflow checks)
  becomes `panic`. Slice indexing goes through `idx`, which panics out of bounds.
* Arithmetic overflow that is reachable (`start - addr` in
  `prepare_raw_data_to_process`, the address sum in
  `param_addresses_and_register_counts`) takes a flag `oc`: `true` models a
  debug build (overflow checks, panic), `false` a release build (wraps).
  Theorems quantify over the flag.
* `u16`, `u8`, `u32` are `BitVec`. `usize` is `Nat` (no reachable `usize` overflow;
  the one exception, `inc_cnt(usize::MAX)` by direct use of the public
  `MessageProcessor::next`, is modelled in `Model/ImperativeCom.lean`; see C98).
* `f32` is `nan | inf sign | fin q` with `q : Rat`; every operation is the exact
  rational operation followed by IEEE-754 round-to-nearest-even with gradual
  underflow and overflow to infinity. The two zeros are identified: the code never
  observes the sign of a zero, which C94 proves on bit patterns (`Model/F32Bits.lean`). That `round` is IEEE rounding is proved
  (representable, nearest, ties to even).
* `std::time::Duration` is its number of nanoseconds.
* `&mut self` methods return the new state together with the result.
* `HashMap` is a function to `Option`, and the loops of the coupler are structural
  recursions. A second model (`Model/Imperative.lean`) has the loops statement by
  statement with maps iterated in any order; C97 proves that it refines to the first.
* `Box<dyn ProcessModbusTcpData>` is an inductive type with one constructor per
  supported module.
* `str::to_uppercase` is a parameter of the name parser, with the ASCII behaviour
  as hypothesis where needed.

Not modelled: `Debug` text, I/O errors (no modelled function produces one),
memory allocation failure, the Modbus transport itself (the crate has none).

## Trusted base

Lean's kernel; the axioms `propext`, `Classical.choice`, `Quot.sound` (no others; see
`lean/Verif/Axioms.lean` for `#print axioms` of the property theorems).

The faithfulness of the model to the Rust source. The crate cannot be built in the sandbox, so
this rests on

* C134–C136: the model equals the mechanical translation of the Rust text. What remains trusted is
  the translator (about 2100 lines of Python, syntax directed; what it does not know is an error)
  and `lean/Verif/Source/Prelude.lean` (350 lines). To repeat the translation, without need of any
  dependency: `python3 tools/rust2lean.py /repo/src lean/Verif/Source`, which leaves the committed
  files unchanged;
* the repository's own tests. Translated mechanically as well (`python3 tools/tests2lean.py
  /repo/src lean/Verif/SourceTests`), all of them hold of the translated source, so they test the
  translator and the prelude together. Transcribed by hand, they hold of the model;
* the semantics of the standard library and of `num_derive` and `byteorder`, as described in the
  comments of the model and of the prelude.

What the translation covers and simplifies:

* every function of `/repo/src` outside `#[cfg(test)]`, except `From<io::Error> for Error` (no
  translated function does I/O) and `Coupler::reader`, `Coupler::writer`, which return references
  as trait objects; the specification of C134 has them as access to the processor map;
* data types without behaviour of their own (`ChannelValue`, `Error`, `ModuleType`, ...) are shared
  with the model, the structs and enums of the modules are translated;
* `usize` is `Nat`: `+` and `*` do not overflow, `-` panics or wraps at 64 bits, shifts are those of
  64 bits. Bit functions agree with the model for bit numbers below 64. The fixed width integer
  operations panic or wrap according to the flag `oc`;
* `hertz` agrees for durations of less than `2 ^ 64` seconds, the range of `Duration`;
* a failing `&mut self` method keeps the state reached so far; the state after a panic is not
  compared.

## Plan per property

| id | model | proof |
|----|-------|-------|
| C01 | `toRegisterAddress`, `toBitAddress` on `BitVec 16` | bit-vector arithmetic for all addresses |
| C02 | `offsetsOfProcessData` on lists | induction, positional characterisation |
| C03 | `moduleListFromRegisters` | induction |
| C04 | `tryFromU32` table | case analysis over the table, converse table |
| C05, C06 | `fromStr` over an arbitrary upper-casing function | table injectivity, induction on the string. C06 fails for `PF`: negation plus partial theorem |
| C07 | all module decoders | case analysis. Fails for the SIL module: negation plus partial theorem |
| C08 | `paramAddresses…` with overflow flag | fails from index 64 on: theorem for at most 64 modules plus the exact panic condition |
| C09–C12, C64 | all `parameters_from_raw_data` | against an independent table of maximal codes per word. C12 fails for the TC module and the two parameterless types: negation plus partial |
| C13–C14, C65 | `Coupler.new` | induction over the module list. C65 fails for UR20_4AI_UI_16: negation plus partial |
| C15–C18 | digital modules | bit-vector lemmas |
| C19–C22 | serial frame codec | status byte case analysis, list lemmas |
| C23–C30 | `MessageProcessor` | invariants over event sequences with a device model |
| C31–C35, C37, C39–C43, C58–C63 | `Coupler` | induction over modules, invariants over histories |
| C36 | coupler plus float model | false for S7: negation with a concrete coupler; partial for S5 |
| C38 | coupler | false: negation with a concrete coupler; partial for decode errors |
| C44, C45 | byte packing | C45 is false: negation plus what holds |
| C46–C48 | counter module | arithmetic. C48 is false for presets above 0x7FFFFF: negation plus partial |
| C49 | float model | error bound |
| C50–C57 | float model | relative error bounds, monotonicity of rounding. C54 is false: negation, and the exact number of raw values that change, counted by the kernel over all of them (`Lemmas/SettleCount*.lean`); C55 is what holds |
| C66, C67 | analog outputs, alone and in a coupler | case analysis; image layout of C41 |
| C68, C69 | `Coupler.next` | totality of every decoder and encoder on complete data; converse by inversion of a successful cycle |
| C70–C73 | `Coupler.next` and all module types | from parameter words and registers of the configuration (`Spec/Channels.lean`), composing the module theorems with the image layout; read-back by composing C71 and C72 |
| C74, C75 | `process_input_data`, `process_output_data`, `process_output_values` of all modules | by cases on the created module against the sizes and value kinds of `Spec/Cycle.lean` and the frame rule of `Spec/Modules.lean` |
| C76 | the `Default` implementations (`Model/Defaults.lean`) | against the table of factory words in `Spec/Modules.lean`, for every type |
| C77, C78 | `Coupler::next` with incomplete images, offsets before the output area and failing encoders | decoding of every module characterised by `InputsPresent`/`OutputPresent` (`Spec/Failure.lean`); first failing module by induction; a state that differs only in what `inputs()` shows behaves the same by induction on the later calls |
| C79, C80, C81 | whole histories with failing cycles anywhere, any number of serial modules | induction over the history: a cycle that cannot be decoded only changes what `inputs()` shows (`run_decodedOnly`), a decoded one gives every serial module exactly its own frame (`decoded_serial`); the shared segment number by induction over the modules (`Spec/Histories.lean`) |
| C82 | the error of a failing `Coupler::next` | faults of single modules in terms of the configuration and the images (`Spec/Faults.lean`); the first fault by `mapRes_first` for decoding and by splitting the encoding loop at the faulty module; least faulty module by strong induction |
| C83, C84 | `MessageProcessor` in the closed system with lost transfers and crashes (`Spec/Unreliable.lean`) | invariant: taken over ++ in flight ++ queued is a sublist of what was written; C83 is false: negation; recovery by C26_rounds |
| C85, C86 | `Coupler.next` in a loop that feeds the returned image back (`Spec/Loop.lean`) | induction over the rounds: the returned image satisfies the sufficient condition of C68 again (layout of C41, frames of C19, presets of C72); a predicate on the channel in the image is established by the cycle that uses the write and kept by every other cycle (C72) |
| C87 | `Display`, `description` and `From<io::Error>` of `Error` (`Model/ErrorText.lean`) | by cases; an I/O text differs from the others in its first character |
| C88 | the provided methods of `Read` and `Write` on a processor (`Model/StdIo.lean`), with nondeterministic buffer sizes | induction over the reads |
| C89, C90, C91 | a coupler and the device behind one of its serial modules, with failing cycles, lost images and restarts (`Spec/Station.lean`) | simulation by the unreliable closed system of C83 and C84: an undecodable cycle is no step, a cycle that fails to encode is a cycle whose image is lost, a restart is a crash; cycles with complete images succeed by C68 and C85 |
| C92 | the unreliable coupler of C89 with `set_output` on the serial module itself (`Spec/Sending.lean`): bytes count as written when a cycle decodes its images | the steps that are not cycles commute with removing the waiting value; a cycle with waiting bytes is a write followed by a cycle of the closed system |
| C93 | the system of C92, with crashes | the receive logs only grow and nothing depends on them, so after a crash the invariant of C28 holds of what they have grown by since |
| C94 | `f32` as 32-bit patterns with the sign rules of IEEE-754, and the float computations of the crate a second time on patterns (`Model/F32Bits.lean`) | storing a representable number and reading it back is the identity; every operation commutes with taking the value unless the divisor is a negative zero; bounds exclude underflow to zero |
| C95 | a coupler with a device at every module of a list of serial modules (`Spec/Network.lean`) | every step, seen from one module, is a step or no step of the system of C92; the theorems of C92 and C93 then apply to each module; rounds of the network are rounds of each device |
| C96 | the derived `to_u16` of every enumeration; the settings a module value can have (`Spec/Settings.lean`) | codes of one enumeration are different and bounded, so registers that describe settings pass the checks of C10 and the fields of the created module (C11) agree with the settings one by one |
| C97 | a second, statement-by-statement model of the coupler (`Model/Imperative.lean`): loop indices, assignments to places, local hash maps as entry lists, iteration in any order given from outside; what an application sees of a history (`Spec/Trace.lean`) | a simulation: lookups agree with the functions of the first model, each iteration changes the local variables at its own module only, and assigning the entries of a map without duplicate keys depends on lookups only |
| C98 | a second, statement-by-statement model of the message processor with counters of `w` bits and the buffer of `read` (`Model/ImperativeCom.lean`); what arrives, is read, written and sent in a history (`Spec/Processor.lean`) | induction over the history for the account of bytes; case analysis for the equivalence with the first model |
| C99 | what arrives in the decodable images, is read, given and started as segments in a history of a coupler (`Spec/Account.lean`) | the coupler drives a processor of its own for each serial module (C79), on which C98 accounts for the bytes; induction over the history |
| C100 | the target of a call, histories that are interleavings of each other, and what is seen of the calls on one target (`Spec/Interleaving.lean`) | calls with different targets commute and do not change each other's results; induction over one history, moving its first call to the front of the other |
| C101 | the view a module has of a history and what is seen of the module (`Spec/Noninterference.lean`) | values decoded depend on the bytes of the module only; the step of a module depends on its part of the state only; a relation of two runs, by induction over both histories |
| C102 | the channels of a module list, the number of bytes waiting at a serial module, prompt readers (`Spec/Memory.lean`) | invariant of pending addresses; C99 for the history with and without its last call; induction over the history for prompt readers |
| C103 | the registers of a station, the set-up an application writes, the modules the registers describe (`Spec/Setup.lean`) | composition of C03, C08, C09, C10, C13 and C96 |
| C104 | all values of the public settings of a module, their number of channel parameter sets (`Spec/Edited.lean`) | refutation with an analog output module without sets; the exact cases of a panic; every module with the right number of sets agrees with one that registers stand for |
| C105 | the settings and parameter registers that take part in conversions (`Spec/Edited.lean`) | case analysis over the modules; registers that agree make settings that agree, by injectivity of the codes (C11); induction over the history |
| C106 | names of module types cut into number, letters and variant (`Spec/Catalogue.lean`) | every type, evaluated by the kernel |
| C107 | decoding and encoding with natural numbers (`Lemmas/Settle.lean`), proved equal to the float model | chain of fixed points over all registers, evaluated by the kernel (`Lemmas/SettleZero.lean`, `SettlePos.lean`, `SettleNeg.lean`); induction over the cycles |
| C108 | two `Coupler`s, a history and its projection to one module | simulation by induction over the history; the cycles of the coupler with one module succeed by C69 |
| C109 | `Coupler::new` and `next` | from the exact condition of success (C68, C69) |
| C110 | histories of `set_output` and `next` | `waiting` is defined on the list of calls; induction over the history (`waiting_run`), then C69, C72, C82 |
| C111 | `set_output`, `next` in a loop with lost transfers (`Spec/Transfers.lean`) | induction over the rounds with C34 and C72; false when the image is read back: negation with a relay |
| C112 | `Coupler::new` and the loop of C111 with crashes (`Spec/Restarts.lean`) | induction over the events: a new coupler has nothing pending; analog registers with the bound of C107 (`Props/AnalogHeld.lean`, also for C111 and C125) |
| C113 | the `From` conversions into `ChannelValue` (`Model/Conversions.lean`) in a coupler | composition of C31, C70 and C72 |
| C114 | an output channel and the input channel wired to it (`Spec/Wiring.lean`) | composition of C70 and C72 with the error bounds of the conversions |
| C115 | two couplers, each with any number of serial devices; two of the devices are connected by a cable (`Spec/Cable.lean`) | the two projections of a schedule are schedules of C95; invariant: the second device has shown a sublist (careful: a prefix) of what the first took over; progress by composing C95_delivered with a cycle of the receiver per segment |
| C116 | data of an input channel (`Spec/Visible.lean`) and what `inputs` shows for it | C70, and strict monotonicity of every analog conversion from its error bound |
| C117 | data of output channels that can be set (`Spec/Settable.lean`) | a number half a raw unit beyond each register is encoded as that register; then C68, C69 and C72 for a list of `set_output` calls chosen channel by channel |
| C118 | pending values that equal the decoded output values | induction over the loop of `next`: such values change neither what is encoded nor the state; then C72 |
| C119 | the flag `oc` of the model: arithmetic that panics or wraps | comparison of one cycle under both values of the flag; induction over the history |
| C120 | an arrangement of process data, in the specification; configurations made with it | induction over the list of modules: the arrangement takes registers just as the coupler counts them; then C13 and C85 |
| C121 | `hertz` with single precision rounding | monotonicity of rounding; seconds and nanoseconds are added in single precision, and the fraction never exceeds one second |
| C122 | two couplers, one for the first modules of the other | simulation: all loops over the modules of the long list start with the loop over the short one; the rest of the loop does not touch what belongs to the first modules |
| C123 | the closed system of C83 with power failures of the station (`Spec/Power.lean`) | invariants over the events; two counterexamples for the full statement |
| C124 | the coupler with serial devices of C95 with power failures (`Spec/PowerNet.lean`) | every step is simulated by steps of C123 for each module; invariants of C123 |
| C125 | the loop of C112 with power failures of the station (`Spec/Outage.lean`) | C72 for one round; induction over the events with the invariant that nothing is pending after a round |
| C126 | what a module sees of a history with failing cycles (`Spec/Isolation.lean`) | induction over both histories as for C101; a cycle that fails to encode has run the module step, one that fails to decode changes nothing of the module |
| C127 | rounds of a cycle and a look of the device from an idle state (`Spec/Throughput.lean`) | C26 through the simulation of C89: the outstanding segments are the chunks of the buffers; length and prefix lemmas about chunks |
| C128 | rounds in which the device also presents a segment (`Spec/Throughput.lean`) | induction over the rounds: presenting a segment leaves the outstanding segments alone, taking one over leaves the receive side alone; C26 and C91 for one round |
| C129 | a processor or a coupler with images on the way in both directions (`Spec/Late.lean`, `Spec/LatePlant.lean`) | invariants on all images on the way: numbers of segments and acknowledgements are at most one behind, in order; the coupler simulates the processor |
| C130 | a coupler with images on the way to the device (`Spec/LateOutputs.lean`) | invariant over all images on the way: each carries the values of the calls before its cycle, and these lists of calls are prefixes of each other in order |
| C131 | two couplers as in C129, with a cable between the devices (`Spec/LateCable.lean`) | each side is a run of C129; an invariant says that what one device has presented is the front of what the other has taken over |
| C132 | the stations of C130 and C114 with images of the inputs on the way (`Spec/LateWire.lean`) | invariant: every image of the inputs was taken while the first device had an image of C130, in order |
| C133 | the systems of C129 started with data in the image of the device, and runs separated by restarts (`Spec/LateRestart.lean`) | simulation: the run with the data removed from the image (C129) differs only in these data; induction over the runs with the waiting segment |
| C134 | the Rust text translated mechanically to Lean (`tools/rust2lean.py`, `Source/`), run on histories (`Spec/Source.lean`) | equality of each translated function with the model's (`Lemmas/Source*.lean`), then induction over the history |
| C135 | the translated modules as records of methods (`Spec/SourceModules.lean`) | case analysis over the module types and the equality lemmas |
| C136 | the translated tables, discovery functions and conversions | whole finite domains by cases, lists by induction |
| C137 | an application that uses the translated functions only (`Spec/SourceRuns.lean`) | C103, C77, C70, C85, C86 and C99 carried over by the simulation between the translation and the model |
| C138 | the translated functions after any history (`Spec/SourceRuns.lean`), what waits to be written read off the calls (`Spec/Pending.lean`) | C31, C14, C110, C80, C81 and C78 carried over by the simulation between the translation and the model |
| C139 | the translated coupler with serial devices under any schedule (`Spec/SourceNet.lean`) | simulation of each step by the system of C95, induction over the schedule |
| C140 | adaptive programs with many couplers and processors, run with the model and the translated source (`Spec/Programs.lean`) | simulation of each action (C134, C137), induction over the run; independence by induction over the actions |
| C141 | the closed system of C83 and the plant of C89, and for each step the segments it loses (`Spec/Lost.lean`) | invariant: written = decided pieces ++ in flight ++ lost behind it ++ queued; simulation of the coupler by the processor with the events it needs |
| C142 | the network of C95 and the one of C139, and for each step the segments of one module it loses (`Spec/LostNet.lean`, `Spec/LostSource.lean`) | projection of the network to one module, C141, and the agreement of the two networks |
| C143 | the station of C124, and for each step the segments of one module it loses (`Spec/LostPower.lean`) | the invariant of C141 is kept by a power failure between cycles; projection as in C142 |
| C144 | the networks of C95 and C139, and the contents of a receive buffer at each crash (`Spec/Dropped.lean`) | induction over the crashes with C95_receive and C95_since_restart |
| C145 | the network of C139 with power failures (`Spec/SourcePower.lean`) | the same run of the model, step by step, and C124 and C143 |
| C146 | the networks of C124 and C145, and the segments shown with the number of the last one shown before (`Spec/Skipped.lean`, `Spec/SkippedSource.lean`) | an invariant that divides what is shown, with a credit of one segment per power failure |
| C147 | the networks of C124 and C145; segments with the number of their repetitions, and the number of power failures in the middle of a cycle (`Spec/Repeats.lean`, `Spec/RepeatsSource.lean`) | an invariant with three stages: nothing new in the returned image, a new segment in it, or an image returned before the power failed |
| C148 | the system of C129 and C133 with any number of devices that share the images (`Spec/LateNet.lean`) | what concerns one module is a schedule of C133; the images of the cycles are complete by induction (C69, C85) |
| C149 | the system of C148 with the coupler of the translated source (`Spec/LateSource.lean`) | simulation: both systems are in the same state after every schedule, whatever the orders of iteration |
| C150 | the system of C148 with restarts, `set_output` on serial channels and a record of the calls each output image stands for (`Spec/LateStation.lean`; with the coupler of the translated source in `Spec/LateStationSource.lean`) | projection of every schedule to a schedule of C130 with the same images; simulation for the source |
| C151 | the system of C148 with `set_output` on the connected modules and a record of the values no cycle has taken yet (`Spec/LateSend.lean`; with the coupler of the translated source in `Spec/LateSendSource.lean`) | every schedule is one of C148 in which the bytes are written right before the cycle that takes them (C60 for all modules at once); simulation for the source |
| C152 | the systems of C129 (one processor, one device behind a coupler) and C148 (any number of devices) with one more step, a cycle that fails although its images can be decoded, and the segments each step loses (`Spec/LateFail.lean`) | the invariants of C129, with the lost bytes taken out of those written; simulation for the coupler and for each device |
| C153 | the system of C152 with any number of devices and a coupler of the translated source (`Spec/LateFailSource.lean`) | step by step in the same state as the system of C152, by C140 |
| C154 | the systems of C152 and C153 started in any state of the device and its images, and sequences of runs (`Spec/LateFailRestart.lean`, `Spec/LateFailSource.lean`) | run beside the same system with the left-over frame replaced by an empty one (`Twin`), which starts as in C152; induction over the runs |
| C155 | the system of C151 with the failing cycles of C152 (`Spec/LateSendFail.lean`, `Spec/LateSendFailSource.lean`) | a run is one of C154 in which the values are written just before the cycle that takes them; the translated source step by step in the same state, by C140 |
| C156 | the system of C150 in which a cycle that fails to encode a value discards the calls since the last successful cycle (`Spec/LateDrop.lean`, `Spec/LateDropSource.lean`) | invariant over the images on the way and the pending values; the translated source step by step in the same state, by C140 |
| C157 | the system of C156 with numbered images of the inputs and the images the last cycle could decode (`Spec/LateShown.lean`, `Spec/LateShownSource.lean`) | invariants over the schedule: what is shown is what the recorded images stand for, and the numbers of the images on the way increase; the translated source step by step in the same state, by C140 |
| C158 | the system of C156 (`Spec/LateDrop.lean`, `Spec/LateDropSource.lean`) | the invariant of C156 for the image the application keeps, combined with C157: a successful cycle shows that image; the translated source is in the same state step by step |
| C159 | the stations of C132 with failing cycles and restarts of both applications (`Spec/LateWireDrop.lean`), also with two couplers of the translated source (`Spec/LateWireSource.lean`) | invariant: every image of the inputs was taken while the first device had an image of C156, in order, and what is shown is what the image used last stands for, by C157 |

## Disagreements between the code and what a user may expect

Found while modelling; each is a theorem (negation with a concrete witness) next to the
partial theorem that does hold.

1. S7 analog outputs drift: every cycle decodes the output image to f32 and encodes it
   again, truncating. With 0..20 mA the raw value 45 becomes 44 after one cycle without
   any write (C36, C54).
2. `UR20_4AI_UI_16` modules report `UR20_4AI_UI_12` as their type (C65).
3. The TC module panics on a parameter list with 36 or more valid words (C12).
4. A module of two or more bytes at an odd byte offset loses its last byte on input and
   all but its first byte on output (C45).
5. `ModuleCategory::from_str("PF")` fails (C06).
6. The SIL module has channel count 0 but reports one value (C07, C39).
7. `last_tx_cnt` is shared by all serial modules, so `outputs()` misreports with two (C58).
8. A counter preset above 8.388607 s in the output image makes every cycle fail (C48).
9. A failed encode at the end of a cycle drops all pending writes and a serial segment (C38, C89).
10. Output offset registers below 0x8000 panic in debug builds (C43).
11. 65 modules overflow the parameter address computation (C08).
12. `UR20_16DO_P` and `UR20_PF_O_1DI_SIL` reject any surplus parameter word with `BufferLength`,
    all other types ignore surplus words (C12).
13. `hertz` of a frequency counter value with a zero duration divides by zero and gives an
    infinity or a NaN (C49).
14. A disabled analog output channel re-encodes to 0, whatever its register held (C67).
15. A value other than bytes written to a serial channel is consumed without an error (C60).
16. The serial segment carried by an image that is lost on the way to the device is never sent again,
    although the processor could tell from the output image it is given (C83).
17. `read_exact` on the reader of a serial module consumes what was received even if it fails (C88).
18. An analog output module with fewer than four channel parameter sets (its settings are public
   fields) panics in `process_output_data`, while `process_output_values` reports `ChannelParameter`
   (C104).
19. A configuration with a module of two or more output bytes in a high byte and another output module
   behind it is accepted by `Coupler::new`, but no cycle of it succeeds (C109).
20. `next` uses up the values set, so if the image it returns is lost and the application reads the
   output image back from the device, these values never reach the device (C111).
21. If the station loses power in the middle of a cycle, the image the cycle returns can make the
   serial module transmit a segment again; and after any power failure the first segment received is
   acknowledged but not stored if it has the number of the last one before (C123).
22. Output offsets that put a module into the high byte of a register which a module before it uses
   are accepted: the values set for the earlier module are taken and then overwritten (C72).
