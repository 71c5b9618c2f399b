{"id": "C01", "title": "Bit addresses split and merge losslessly", "statement": "to_register_address splits every 16-bit address a into register a/16 and bit a%16, and to_bit_address(register, bit) gives a back; conversely merging a register below 0x1000 with a bit below 16 and splitting again returns the same pair.", "quantifier": "all 16-bit addresses; all registers below 0x1000 with all bits below 16", "why_tests_cant": "Tests check a handful of addresses; the claim is about all of them, including 0xFFFF and the top nibble.", "anchors": ["src/ur20_fbc_mod_tcp.rs::to_register_address", "src/ur20_fbc_mod_tcp.rs::to_bit_address"]}
{"id": "C02", "title": "Offset registers map to module offsets", "statement": "offsets_of_process_data yields one entry per complete register pair; entry i has output = word 2i and input = word 2i+1, where 0xFFFF means absent; an odd trailing word is ignored.", "quantifier": "all register lists of any length", "why_tests_cant": "The list length is unbounded.", "anchors": ["src/ur20_fbc_mod_tcp.rs::offsets_of_process_data", "src/ur20_fbc_mod_tcp.rs::word_to_offset"]}
{"id": "C03", "title": "Module list decoding is total and positional", "statement": "module_list_from_registers returns RegisterCount exactly for empty or odd-length input, otherwise UnknownModule exactly when some register pair is not a known id, otherwise the list whose i-th entry is the type with id words[2i]*65536+words[2i+1].", "quantifier": "all register lists of any length", "why_tests_cant": "The list length and the id words are unbounded.", "anchors": ["src/ur20_fbc_mod_tcp.rs::module_list_from_registers", "src/lib.rs::ModuleType::try_from_u32"]}
{"id": "C04", "title": "Module ids identify modules uniquely", "statement": "Two ids that decode to the same module type are equal, and every module type except the two plain power feeds UR20_PF_I and UR20_PF_O is the image of exactly one id, the one of the catalogue; every other id is UnknownModule.", "quantifier": "all 32-bit ids and all module types", "why_tests_cant": "There are 2^32 ids.", "anchors": ["src/lib.rs::ModuleType::try_from_u32"]}
{"id": "C05", "title": "Module names parse in any case and with dashes or underscores", "statement": "ModuleType::from_str(s) is Ok(t) exactly when the upper-cased s with every dash replaced by an underscore is the variant name of t; in particular every ASCII case variant and every dash/underscore variant of a type name parses to that type and everything else is UnknownModule.", "quantifier": "all strings", "why_tests_cant": "Strings are unbounded.", "anchors": ["src/lib.rs::FromStr for ModuleType"]}
{"id": "C06", "title": "Every category name parses back", "statement": "ModuleCategory::from_str accepts, in any ASCII case, the name of every category a module can belong to and nothing else.", "quantifier": "all strings and all categories", "why_tests_cant": "Strings are unbounded.", "anchors": ["src/lib.rs::FromStr for ModuleCategory", "src/lib.rs::From<ModuleType> for ModuleCategory"]}
{"id": "C07", "title": "Decoded channel lists have one entry per channel", "statement": "For every supported module, whenever decoding its input data (output data) succeeds the returned list has exactly channel_count entries.", "quantifier": "all supported modules, parameters and raw word lists", "why_tests_cant": "Ranges over every parameterisation and data list.", "anchors": ["src/ur20_fbc_mod_tcp.rs::ProcessModbusTcpData", "src/lib.rs::ModuleType::channel_count"]}
{"id": "C08", "title": "Parameter register windows", "statement": "param_addresses_and_register_counts gives module i the window starting at 0xC000+256*i, with windows pairwise disjoint and inside the 16-bit register space, and as many registers as its parameter block has, for every list of up to 64 modules of the types Coupler::new supports or of the two three-wire digital input types. It panics exactly for lists with a module of another type and, with overflow checks, for more than 64 modules; without overflow checks the addresses wrap around.", "quantifier": "all module lists, debug and release builds", "why_tests_cant": "Lists are unbounded; the interesting case is arithmetic overflow at index 64.", "anchors": ["src/ur20_fbc_mod_tcp.rs::param_addresses_and_register_counts", "src/ur20_fbc_mod_tcp.rs::param_register_count"]}
{"id": "C09", "title": "Reading the advertised number of parameter registers is always enough", "statement": "For every module type Coupler::new supports, parameter data shorter than param_register_count is rejected with BufferLength, and data of exactly that length is never rejected for its length and never panics.", "quantifier": "all supported module types and all parameter word lists", "why_tests_cant": "Parameter words are arbitrary 16-bit values.", "anchors": ["src/ur20_fbc_mod_tcp.rs::param_register_count", "src/ur20_fbc_mod_tcp.rs::FromModbusParameterData"]}
{"id": "C10", "title": "Parameter data is accepted exactly when every word is in range", "statement": "For every supported module type, creating the module from a parameter list of the advertised length succeeds iff each parameter word is at most the largest documented code for its position, and fails with ChannelParameter otherwise; a shorter list fails with BufferLength. (Longer lists are the subject of C12.)", "quantifier": "all supported module types and all parameter word lists", "why_tests_cant": "There are 65536 values for each of up to 33 words.", "anchors": ["src/ur20_fbc_mod_tcp.rs::FromModbusParameterData", "src/ur20_1com_232_485_422.rs::parameters_from_raw_data", "src/ur20_2fcnt_100.rs::parameters_from_raw_data", "src/ur20_4ai_rtd_diag.rs::parameters_from_raw_data", "src/ur20_4ai_tc_diag.rs::parameters_from_raw_data", "src/ur20_4ai_ui_16_diag.rs::parameters_from_raw_data", "src/ur20_4ao_ui_16.rs::parameters_from_raw_data", "src/ur20_4ao_ui_16_diag.rs::parameters_from_raw_data", "src/ur20_4ro_co_255.rs::parameters_from_raw_data", "src/ur20_8ai_i_16_diag_hd.rs::parameters_from_raw_data", "src/ur20_ai_ui_generic.rs::parameters_from_raw_data", "src/ur20_di_generic.rs::parameters_from_raw_data", "src/ur20_do_generic.rs::parameters_from_raw_data"]}
{"id": "C11", "title": "Parameter words land in the documented fields", "statement": "When parameter data is accepted, each field of each channel holds the value encoded by the word at that channel and field position; channels are not swapped or shifted.", "quantifier": "all supported module types and all accepted parameter lists", "why_tests_cant": "Position mix-ups only show on particular channel/value combinations.", "anchors": ["src/ur20_1com_232_485_422.rs::parameters_from_raw_data", "src/ur20_2fcnt_100.rs::parameters_from_raw_data", "src/ur20_4ai_rtd_diag.rs::parameters_from_raw_data", "src/ur20_4ai_tc_diag.rs::parameters_from_raw_data", "src/ur20_4ai_ui_16_diag.rs::parameters_from_raw_data", "src/ur20_4ao_ui_16.rs::parameters_from_raw_data", "src/ur20_4ao_ui_16_diag.rs::parameters_from_raw_data", "src/ur20_4ro_co_255.rs::parameters_from_raw_data", "src/ur20_8ai_i_16_diag_hd.rs::parameters_from_raw_data", "src/ur20_ai_ui_generic.rs::parameters_from_raw_data", "src/ur20_di_generic.rs::parameters_from_raw_data", "src/ur20_do_generic.rs::parameters_from_raw_data"]}
{"id": "C12", "title": "Surplus parameter words are ignored", "statement": "Extra words after the advertised parameter block do not change the result and do not panic.", "quantifier": "all supported module types and all longer lists", "why_tests_cant": "Needs every length.", "anchors": ["src/ur20_4ai_tc_diag.rs::parameters_from_raw_data", "src/ur20_1com_232_485_422.rs::parameters_from_raw_data", "src/ur20_2fcnt_100.rs::parameters_from_raw_data", "src/ur20_4ai_rtd_diag.rs::parameters_from_raw_data", "src/ur20_4ai_tc_diag.rs::parameters_from_raw_data", "src/ur20_4ai_ui_16_diag.rs::parameters_from_raw_data", "src/ur20_4ao_ui_16.rs::parameters_from_raw_data", "src/ur20_4ao_ui_16_diag.rs::parameters_from_raw_data", "src/ur20_4ro_co_255.rs::parameters_from_raw_data", "src/ur20_8ai_i_16_diag_hd.rs::parameters_from_raw_data", "src/ur20_ai_ui_generic.rs::parameters_from_raw_data", "src/ur20_di_generic.rs::parameters_from_raw_data", "src/ur20_do_generic.rs::parameters_from_raw_data"]}
{"id": "C13", "title": "Coupler construction outcome", "statement": "Coupler::new fails with BufferLength if modules and params differ in length, with ModuleOffset if offsets has not twice as many words as modules, with the first parameter error otherwise, succeeds when all modules are supported and their parameters acceptable, and then holds the modules in the given order with the given types (what type a module object reports is C65).", "quantifier": "all configurations", "why_tests_cant": "Configurations are unbounded lists.", "anchors": ["src/ur20_fbc_mod_tcp.rs::Coupler::new", "src/ur20_fbc_mod_tcp.rs::CouplerConfig::validate"]}
{"id": "C14", "title": "Readers and writers exist exactly for serial modules", "statement": "After Coupler::new, and after any sequence of operations, reader(n) and writer(n) are Some iff module n of the configuration is the serial module.", "quantifier": "all configurations, all indices, all operation histories", "why_tests_cant": "Ranges over histories.", "anchors": ["src/ur20_fbc_mod_tcp.rs::Coupler::reader", "src/ur20_fbc_mod_tcp.rs::Coupler::writer"]}
{"id": "C15", "title": "Digital input bits", "statement": "A digital input module reports channel i as bit i of its data word, for every word; words of any other count are rejected with BufferLength.", "quantifier": "all words and lists, both variants", "why_tests_cant": "All 65536 words and all lengths.", "anchors": ["src/ur20_di_generic.rs::process_input_data"]}
{"id": "C16", "title": "Digital output encoding", "statement": "For each digital or relay output module, encoding n channel values succeeds iff there are exactly n values, all Bit or Disabled, and the word has bit i set iff channel i is Bit(true); bits above the channel count are 0.", "quantifier": "all value lists, all five modules", "why_tests_cant": "All lists of values.", "anchors": ["src/ur20_do_generic.rs::process_output_values", "src/ur20_16do_p.rs", "src/ur20_4ro_co_255.rs"]}
{"id": "C17", "title": "Digital outputs round-trip", "statement": "Decoding then encoding a digital output word keeps the channel bits and clears the others; encoding then decoding bit values returns them.", "quantifier": "all words, all bit lists, all five modules", "why_tests_cant": "All 65536 words and all lists.", "anchors": ["src/ur20_do_generic.rs", "src/ur20_16do_p.rs", "src/ur20_4ro_co_255.rs"]}
{"id": "C18", "title": "Safety input bits", "statement": "The PF-O-1DI-SIL module decodes each documented status flag from its documented byte and bit, independent of all other bits.", "quantifier": "all data words", "why_tests_cant": "2^32 images.", "anchors": ["src/ur20_pf_o_1di_sil.rs::process_input_data"]}
{"id": "C19", "title": "Serial output frames round-trip through bytes", "statement": "For every serial output message with counters below 4 and data within the frame capacity, encoding to bytes gives exactly 8 or 16 bytes and decoding these returns the same message.", "quantifier": "all messages, both frame sizes", "why_tests_cant": "All flag, counter and byte contents.", "anchors": ["src/ur20_1com_232_485_422.rs::ProcessOutput::try_into_byte_message", "src/ur20_1com_232_485_422.rs::ProcessOutput::try_from_byte_message"]}
{"id": "C20", "title": "Serial encoding errors", "statement": "try_into_byte_message fails with SequenceNumber iff a counter exceeds 3, else with DataLength iff data exceeds the capacity, and otherwise succeeds; it never panics.", "quantifier": "all messages", "why_tests_cant": "Unbounded counters and data.", "anchors": ["src/ur20_1com_232_485_422.rs::ProcessOutput::try_into_byte_message"]}
{"id": "C21", "title": "Serial decoding", "statement": "try_from_byte_message (both directions) fails with BufferLength iff fewer than 2 bytes or fewer than 2+length bytes are given, and otherwise each field is its documented bit field of byte 0 and data the next length bytes; counters are always below 4.", "quantifier": "all byte lists", "why_tests_cant": "Unbounded byte lists.", "anchors": ["src/ur20_1com_232_485_422.rs::ProcessInput::try_from_byte_message", "src/ur20_1com_232_485_422.rs::ProcessOutput::try_from_byte_message"]}
{"id": "C22", "title": "Serial frames round-trip through registers", "statement": "Encoding a valid serial output message to registers and decoding these registers (as the next cycle does) returns the same message.", "quantifier": "all messages, both frame sizes", "why_tests_cant": "All contents.", "anchors": ["src/ur20_1com_232_485_422.rs::process_output_values", "src/ur20_1com_232_485_422.rs::process_output_data", "src/util.rs::u8_to_u16"]}
{"id": "C23", "title": "Serial initialisation handshake", "statement": "Whatever inputs and outputs it is given, the first call of a fresh MessageProcessor clears reset and sets both flush flags, the second sets reset and clears both flush flags, both send no data and leave tx_cnt and the hardware-buffer flag alone, and from the third call on these four flags are passed through unchanged.", "quantifier": "all input/output sequences", "why_tests_cant": "All sequences.", "anchors": ["src/ur20_1com_232_485_422.rs::MessageProcessor::next"]}
{"id": "C24", "title": "Stop-and-wait", "statement": "After initialisation the processor emits a new segment only when the device has acknowledged the previous one (tx_cnt in the output image is not ack+1 mod 4); otherwise tx_cnt and data are passed through unchanged and nothing is dequeued.", "quantifier": "all processor states, inputs and outputs", "why_tests_cant": "All states.", "anchors": ["src/ur20_1com_232_485_422.rs::MessageProcessor::next"]}
{"id": "C25", "title": "Transmitted bytes arrive exactly once and in order", "statement": "With a device that takes over the frame in the output image when its tx_cnt is the successor of the last acknowledged one and acknowledges by copying tx_cnt, after any interleaving of writes, cycles and arbitrarily delayed device steps the bytes taken by the device followed by those in flight and those queued equal the bytes written, in order, without loss or duplication.", "quantifier": "all schedules of writes, cycles and device steps", "why_tests_cant": "Interleavings and lengths are unbounded.", "anchors": ["src/ur20_1com_232_485_422.rs::MessageProcessor::next", "src/ur20_1com_232_485_422.rs::Write for MessageProcessor"]}
{"id": "C26", "title": "Transmission progress", "statement": "If cycles and device acknowledgements keep alternating, every written byte is delivered: after k rounds at least min(k, queued) further segments are taken over, and the queue becomes empty.", "quantifier": "all states and numbers of rounds", "why_tests_cant": "Liveness over unbounded histories.", "anchors": ["src/ur20_1com_232_485_422.rs::MessageProcessor::next"]}
{"id": "C27", "title": "Segments respect the frame capacity", "statement": "Whatever is written, every queued and emitted segment has between 1 and 6 (14) bytes, so encoding a processor result never fails for its length; write always accepts the whole buffer.", "quantifier": "all write and cycle sequences", "why_tests_cant": "All sequences and lengths.", "anchors": ["src/ur20_1com_232_485_422.rs::Write for MessageProcessor"]}
{"id": "C28", "title": "Received segments are stored exactly once and in order", "statement": "With a device that presents a new segment only after the previous one was acknowledged, incrementing rx_cnt modulo 4 and leaving it in place for any number of cycles, the bytes delivered by reads followed by those still buffered equal the concatenation of the presented segments seen by the processor after initialisation.", "quantifier": "all schedules of device posts, cycles and reads", "why_tests_cant": "Interleavings are unbounded.", "anchors": ["src/ur20_1com_232_485_422.rs::MessageProcessor::next", "src/ur20_1com_232_485_422.rs::Read for MessageProcessor"]}
{"id": "C29", "title": "Receive acknowledgement", "statement": "Every call acknowledges exactly the rx_cnt it was given, in every state.", "quantifier": "all states, inputs, outputs", "why_tests_cant": "All states.", "anchors": ["src/ur20_1com_232_485_422.rs::MessageProcessor::next"]}
{"id": "C30", "title": "Reads are FIFO", "statement": "For any sequence of read buffer sizes, the concatenation of what read returns is a prefix of the received bytes and the remainder stays buffered; a read returns min(buffer size, available) bytes.", "quantifier": "all read sequences and states", "why_tests_cant": "All sequences.", "anchors": ["src/ur20_1com_232_485_422.rs::Read for MessageProcessor"]}
{"id": "C31", "title": "set_output accepts exactly existing channels", "statement": "set_output returns Ok iff the module index is below the module count and the channel below the channel count of that module; otherwise it returns Address and changes nothing.", "quantifier": "all couplers and addresses", "why_tests_cant": "All couplers.", "anchors": ["src/ur20_fbc_mod_tcp.rs::Coupler::set_output"]}
{"id": "C32", "title": "The last write wins", "statement": "Of several set_output calls to one address before a cycle only the last one takes effect, and calls to different addresses commute.", "quantifier": "all call sequences", "why_tests_cant": "All sequences.", "anchors": ["src/ur20_fbc_mod_tcp.rs::Coupler::set_output"]}
{"id": "C33", "title": "Writes reach the next output image", "statement": "After set_output(Bit) on digital outputs, the next successful cycle returns an image in which that channel has the written value and all channels without a pending write keep the value of the given image.", "quantifier": "all couplers, digital output modules whose output bytes no later module uses, with 16-channel modules at a register boundary (see C45 for others); all images and pending writes", "why_tests_cant": "All configurations and write sets.", "anchors": ["src/ur20_fbc_mod_tcp.rs::Coupler::next"]}
{"id": "C34", "title": "Writes are applied once", "statement": "A successful cycle consumes every pending write to an existing channel of a module that is not serial; later cycles of a coupler without serial modules depend only on the images given to them.", "quantifier": "all couplers and histories", "why_tests_cant": "All histories.", "anchors": ["src/ur20_fbc_mod_tcp.rs::Coupler::next"]}
{"id": "C35", "title": "A cycle without writes does not change digital outputs", "statement": "With no pending writes a successful cycle returns, for every digital output module, the bits of the given image.", "quantifier": "all couplers, digital output modules whose output bytes no later module uses, with 16-channel modules at a register boundary (see C45 for others); all images", "why_tests_cant": "All configurations and images.", "anchors": ["src/ur20_fbc_mod_tcp.rs::Coupler::next"]}
{"id": "C36", "title": "A cycle without writes does not change analog outputs", "statement": "With no pending writes a successful cycle returns, for every enabled analog output channel, the raw value of the given image.", "quantifier": "all couplers and images, output modules whose data starts at a register (see C45); all 65536 raw values in each range and format", "why_tests_cant": "Float rounding differs per raw value.", "anchors": ["src/ur20_fbc_mod_tcp.rs::Coupler::next", "src/ur20_4ao_ui_16.rs", "src/util.rs"]}
{"id": "C37", "title": "A failed cycle has no partial effect", "statement": "If next fails because of the input image, nothing observable changes; if it fails because of the output image, only inputs() changes.", "quantifier": "all couplers and images", "why_tests_cant": "All failures.", "anchors": ["src/ur20_fbc_mod_tcp.rs::Coupler::next"]}
{"id": "C38", "title": "A failed cycle loses no pending data", "statement": "If next fails, every pending write and every queued serial byte is still pending.", "quantifier": "all couplers and images", "why_tests_cant": "All failures.", "anchors": ["src/ur20_fbc_mod_tcp.rs::Coupler::next"]}
{"id": "C39", "title": "Shape of inputs() and outputs()", "statement": "After a successful cycle inputs() and outputs() have one entry per module, each with channel_count values.", "quantifier": "all couplers and images", "why_tests_cant": "All configurations.", "anchors": ["src/ur20_fbc_mod_tcp.rs::Coupler::next"]}
{"id": "C40", "title": "inputs() reflects the latest input image only", "statement": "After a successful cycle the input values of all non-serial modules depend only on the process input data given to that cycle.", "quantifier": "all couplers and histories", "why_tests_cant": "All histories.", "anchors": ["src/ur20_fbc_mod_tcp.rs::Coupler::next", "src/ur20_fbc_mod_tcp.rs::process_input_data"]}
{"id": "C41", "title": "Output image layout", "statement": "When encoding succeeds, the image consists of the modules’ words in order: every module with word-aligned offset starts at its offset, byte-packed modules share the word before, and the image has no gaps; a module whose offset is not where the previous one ended is rejected with ModuleOffset.", "quantifier": "all module lists, offsets and values", "why_tests_cant": "All configurations.", "anchors": ["src/ur20_fbc_mod_tcp.rs::process_output_values"]}
{"id": "C42", "title": "Modules do not influence each other’s outputs", "statement": "Changing the values of one module changes only the bytes of that module in the image.", "quantifier": "all module lists and values", "why_tests_cant": "All configurations.", "anchors": ["src/ur20_fbc_mod_tcp.rs::process_output_values"]}
{"id": "C43", "title": "A cycle never panics", "statement": "For every coupler built by Coupler::new, every history and every pair of images, next returns Ok or Err.", "quantifier": "all configurations, histories and images", "why_tests_cant": "All inputs.", "anchors": ["src/ur20_fbc_mod_tcp.rs::Coupler::next", "src/ur20_fbc_mod_tcp.rs::prepare_raw_data_to_process"]}
{"id": "C44", "title": "Byte-packed modules share a register", "statement": "One-byte modules at bit 0 and bit 8 of the same register decode from the low and the high byte and are encoded into the low and the high byte.", "quantifier": "all words and both positions", "why_tests_cant": "All words.", "anchors": ["src/ur20_fbc_mod_tcp.rs::prepare_raw_data_to_process", "src/ur20_fbc_mod_tcp.rs::process_output_values"]}
{"id": "C45", "title": "Modules at odd byte offsets", "statement": "A module of two or more bytes placed at bit 8 decodes all its bytes from, and encodes all its bytes to, the bytes following the odd offset.", "quantifier": "all modules and images", "why_tests_cant": "All configurations.", "anchors": ["src/ur20_fbc_mod_tcp.rs::prepare_raw_data_to_process", "src/ur20_fbc_mod_tcp.rs::process_output_values", "src/util.rs::shift_data"]}
{"id": "C46", "title": "Frequency counter input decoding", "statement": "Each counter channel reports the 32-bit big-word-first count, active from bit 8 of its status word, and a duration of 125 ns times the period value, or none at or above 0x07FFFFFF.", "quantifier": "all ten-word images", "why_tests_cant": "2^160 images.", "anchors": ["src/ur20_2fcnt_100.rs::process_input_data"]}
{"id": "C47", "title": "Frequency counter output round-trip", "statement": "Encoding a counter command with a duration of at most 8.388607 s and decoding it again returns the command and the duration truncated to microseconds; longer durations are rejected with ChannelValue.", "quantifier": "all durations and commands", "why_tests_cant": "Durations range over 2^94 values.", "anchors": ["src/ur20_2fcnt_100.rs::process_output_values", "src/ur20_2fcnt_100.rs::process_output_data"]}
{"id": "C48", "title": "Any counter output image can be cycled", "statement": "For every output image, decoding a counter module and encoding the decoded values succeeds.", "quantifier": "all six-word images", "why_tests_cant": "2^96 images.", "anchors": ["src/ur20_2fcnt_100.rs"]}
{"id": "C49", "title": "Frequency calculation", "statement": "hertz is none iff the duration is none, and for a non-zero duration it is within 2^-21 relative error of count divided by the duration.", "quantifier": "all counts and durations", "why_tests_cant": "All inputs.", "anchors": ["src/ur20_2fcnt_100.rs::ProcessInput::hertz"]}
{"id": "C50", "title": "Analog decoding accuracy", "statement": "The decoded analog value differs from the exact physical value (linear in the raw value, 0..full scale for the format) by at most a few units in the last place, for every raw value, range and format; disabled channels give Disabled.", "quantifier": "all raw words, ranges, formats", "why_tests_cant": "Float rounding differs per raw value.", "anchors": ["src/util.rs::u16_to_analog_ui_value"]}
{"id": "C51", "title": "Analog decoding is monotone", "statement": "A larger signed raw value never decodes to a smaller analog value.", "quantifier": "all pairs of raw words, all ranges and formats", "why_tests_cant": "2^32 pairs per range.", "anchors": ["src/util.rs::u16_to_analog_ui_value"]}
{"id": "C52", "title": "Analog encoding saturates and is monotone", "statement": "For every f32 including NaN and infinities, encoding never panics, NaN gives 0, values beyond the 16-bit range clamp to its ends, and a larger value never gives a smaller raw value.", "quantifier": "all f32 values, ranges, formats", "why_tests_cant": "2^32 values, and pairs of them.", "anchors": ["src/util.rs::analog_ui_value_to_u16"]}
{"id": "C53", "title": "S5 analog values round-trip exactly", "statement": "In S5 format, encoding the decoded value returns the raw word, for every raw word and enabled range.", "quantifier": "all raw words and enabled ranges", "why_tests_cant": "Float rounding differs per raw value.", "anchors": ["src/util.rs"]}
{"id": "C54", "title": "S7 analog values round-trip exactly", "statement": "In S7 format, encoding the decoded value returns the raw word, for every raw word and enabled range.", "quantifier": "all raw words and enabled ranges", "why_tests_cant": "Float rounding differs per raw value.", "anchors": ["src/util.rs"]}
{"id": "C55", "title": "S7 analog drift is bounded", "statement": "In S7 format each decode/encode step changes the raw value by at most 1, always towards zero, never past it, and 0 stays 0, so repeated cycles without writes never move a value away from zero nor change its sign, and never move it past the next multiple of 27.", "quantifier": "all raw words, enabled ranges and numbers of cycles, output modules whose data starts at a register (see C45)", "why_tests_cant": "Float rounding and unbounded repetition.", "anchors": ["src/util.rs", "src/ur20_fbc_mod_tcp.rs::Coupler::next"]}
{"id": "C56", "title": "Resistance thermometer decoding", "statement": "Temperature ranges decode the word as signed tenths, resistance ranges as the unsigned fraction of 27648 times the range; Disabled gives Disabled.", "quantifier": "all words and ranges", "why_tests_cant": "Float rounding.", "anchors": ["src/util.rs::u16_to_rtd_value", "src/ur20_4ai_rtd_diag.rs"]}
{"id": "C57", "title": "Thermocouple decoding", "statement": "Thermocouple ranges decode the word as signed tenths, except that 32767 is reported as no value; voltage ranges decode as signed fraction of 32767 of the range; Disabled gives Disabled.", "quantifier": "all words and ranges", "why_tests_cant": "Float rounding.", "anchors": ["src/ur20_4ai_tc_diag.rs::u16_to_thermal_value"]}
{"id": "C58", "title": "Serial bytes reported by outputs()", "statement": "With exactly one serial module, outputs() shows Bytes(data) for a cycle exactly when the output image carries a non-empty segment whose tx_cnt differs from the previous cycle’s, and None otherwise; the same holds per module when there are several.", "quantifier": "all couplers and histories", "why_tests_cant": "All histories.", "anchors": ["src/ur20_fbc_mod_tcp.rs::Coupler::next"]}
{"id": "C59", "title": "Serial bytes reported by inputs()", "statement": "inputs() shows Bytes(data) in a cycle exactly when the input image has data available and non-empty data, and None otherwise.", "quantifier": "all couplers and histories; serial modules with both offsets present", "why_tests_cant": "All histories.", "anchors": ["src/ur20_fbc_mod_tcp.rs::Coupler::next"]}
{"id": "C60", "title": "set_output(Bytes) on a serial module equals writing to its writer", "statement": "A pending Bytes value on a serial module enters the transmit queue at the next cycle exactly as writer().write_all would have queued it just before that cycle.", "quantifier": "all couplers, images and data; serial modules at register boundaries; cycles that succeed", "why_tests_cant": "All data.", "anchors": ["src/ur20_fbc_mod_tcp.rs::Coupler::next", "src/ur20_fbc_mod_tcp.rs::Coupler::writer"]}
{"id": "C61", "title": "Writes to input-only modules have no effect on the image", "statement": "Pending writes to modules without process output do not change the returned image or any error.", "quantifier": "all couplers and images", "why_tests_cant": "All configurations.", "anchors": ["src/ur20_fbc_mod_tcp.rs::Coupler::next"]}
{"id": "C62", "title": "Serial data through the whole coupler", "statement": "For a coupler with a serial module, driven by a device that copies the returned image into the next output image, bytes written through writer() appear in the returned images segment by segment, exactly once and in order, and bytes presented by the device are read through reader() exactly once and in order.", "quantifier": "all couplers with a serial module at register boundaries whose output bytes no later module uses; all schedules in which the cycles succeed", "why_tests_cant": "Unbounded histories.", "anchors": ["src/ur20_fbc_mod_tcp.rs::Coupler::next", "src/ur20_1com_232_485_422.rs"]}
{"id": "C63", "title": "Serial modules are independent", "statement": "The segments, acknowledgements and received bytes of one serial module depend only on its own image words, writes and reads.", "quantifier": "all couplers with several serial modules", "why_tests_cant": "All histories.", "anchors": ["src/ur20_fbc_mod_tcp.rs::Coupler::next"]}
{"id": "C64", "title": "Substitute values", "statement": "The substitute value of an enabled analog output channel is the decoded third parameter word, of a disabled one 0.", "quantifier": "all parameter lists", "why_tests_cant": "All words.", "anchors": ["src/ur20_4ao_ui_16.rs::parameters_from_raw_data", "src/ur20_4ao_ui_16_diag.rs::parameters_from_raw_data"]}
{"id": "C65", "title": "Coupler module types are reported faithfully", "statement": "The module type a created module reports is the module type it was created for.", "quantifier": "all supported module types and parameters", "why_tests_cant": "All parameterisations.", "anchors": ["src/ur20_ai_ui_generic.rs::module_type", "src/ur20_fbc_mod_tcp.rs::Coupler::new"]}
{"id": "C66", "title": "Values accepted by analog outputs", "statement": "An analog output module accepts exactly lists of four values that are numbers or Disabled, and rejects everything else with ChannelValue; while any other value is pending for an analog output no cycle succeeds.", "quantifier": "all analog output modules, value lists, couplers and images", "why_tests_cant": "All values.", "anchors": ["src/ur20_4ao_ui_16.rs::process_output_values", "src/ur20_4ao_ui_16_diag.rs::process_output_values", "src/ur20_fbc_mod_tcp.rs::Coupler::next"]}
{"id": "C67", "title": "A pending number reaches the analog output", "statement": "After a successful cycle the register of an analog output channel holds the encoding of the number that was pending for it (0 for Disabled).", "quantifier": "all couplers, images and numbers; analog modules at register boundaries whose output bytes no later module uses", "why_tests_cant": "All values and configurations.", "anchors": ["src/ur20_fbc_mod_tcp.rs::Coupler::next", "src/util.rs::analog_ui_value_to_u16"]}
{"id": "C68", "title": "Complete images and encodable values make a cycle succeed", "statement": "Given images that hold the registers of every module with an offset (half as many as it has bytes, at least one, from the register it starts in), output offsets that follow each other without gaps, serial frames with valid length fields, pending values of the kind their channels accept and counter presets of at most 0x7FFFFF us, next succeeds and returns one image of as many registers as the output modules take.", "quantifier": "all couplers after any history, all images", "why_tests_cant": "All configurations, histories and image contents; rules out spurious errors.", "anchors": ["src/ur20_fbc_mod_tcp.rs::Coupler::next", "src/ur20_fbc_mod_tcp.rs::process_input_data", "src/ur20_fbc_mod_tcp.rs::process_output_values"]}
{"id": "C69", "title": "Nothing less makes a cycle succeed", "statement": "next succeeds exactly under the conditions of C68: a short image, a gap in the offsets, an invalid frame length or an unacceptable pending value always ends in an error.", "quantifier": "all couplers after any history, modules at any offsets, all images", "why_tests_cant": "All configurations and images; rules out silent acceptance.", "anchors": ["src/ur20_fbc_mod_tcp.rs::Coupler::next", "src/ur20_fbc_mod_tcp.rs::process_input_data", "src/ur20_fbc_mod_tcp.rs::process_output_values"]}
{"id": "C70", "title": "What inputs() shows", "statement": "After a successful cycle inputs() shows, for every channel of every configured module that is not serial and has an input offset, the value that the registers of the input image at that offset and the parameter words of the channel stand for: the bit, the scaled analog value, the temperature, the counter values or the safety status. Without an input offset it shows only None.", "quantifier": "all couplers after any history, images, modules and channels; modules at register boundaries or of one byte", "why_tests_cant": "All configurations, parameters and image contents.", "anchors": ["src/ur20_fbc_mod_tcp.rs::Coupler::next", "src/ur20_fbc_mod_tcp.rs::Coupler::inputs"]}
{"id": "C71", "title": "What outputs() shows", "statement": "After a successful cycle outputs() shows, for every channel of every configured module that is not serial and has an output offset, the value that the given output image and the parameter words of the channel stand for, whatever is pending. Without an output offset it shows only None.", "quantifier": "all couplers after any history, images, modules and channels; modules at register boundaries or of one byte", "why_tests_cant": "All configurations, parameters and image contents.", "anchors": ["src/ur20_fbc_mod_tcp.rs::Coupler::next", "src/ur20_fbc_mod_tcp.rs::Coupler::outputs"]}
{"id": "C72", "title": "What a cycle returns for a channel", "statement": "The image a successful cycle returns holds, for every channel of every configured module that is not serial, the pending value; without one it holds what the given output image says (analog values up to one raw unit in format S7, 0 if the channel is disabled, counter control words reduced to the command). No cycle succeeds with a pending value of the wrong kind.", "quantifier": "all couplers after any history, images, pending values and channels, output modules whose bytes no later module uses and whose data starts at a register or has one byte (see C45)", "why_tests_cant": "All configurations, histories and image contents.", "anchors": ["src/ur20_fbc_mod_tcp.rs::Coupler::next", "src/ur20_fbc_mod_tcp.rs::process_output_values"]}
{"id": "C73", "title": "Read-back of written values", "statement": "If the image a cycle returns is the output image of a later cycle, outputs() then shows what was pending in the first cycle: the same bit, the same counter command and preset in whole microseconds, and a number that differs by at most 9/8 of the value of a raw unit.", "quantifier": "all couplers after any history, all images and pending values in range, output modules whose bytes no later module uses and whose data starts at a register or has one byte (see C45)", "why_tests_cant": "All histories between the two cycles and all values.", "anchors": ["src/ur20_fbc_mod_tcp.rs::Coupler::next", "src/ur20_fbc_mod_tcp.rs::Coupler::outputs", "src/util.rs::analog_ui_value_to_u16"]}
{"id": "C74", "title": "Exactly which registers a module decodes", "statement": "A module created from accepted parameter words decodes input (output) registers exactly if their number is the one its process data needs (for the serial module: the length field announces no more bytes than there are) and then returns one value per channel; otherwise it returns BufferLength. A module without data in a direction accepts only the empty list and shows None for every channel.", "quantifier": "all module types, parameter words and register lists", "why_tests_cant": "All lists of all lengths for all parameterisations.", "anchors": ["src/ur20_fbc_mod_tcp.rs::ProcessModbusTcpData::process_input_data", "src/ur20_fbc_mod_tcp.rs::ProcessModbusTcpData::process_output_data"]}
{"id": "C75", "title": "Exactly which values a module encodes", "statement": "A module with plain outputs encodes a list of values exactly if there is one value per channel and every value is of an accepted kind and range, into as many registers as its process data needs; otherwise it returns ChannelValue. A module without outputs accepts the empty list and any list with one value per channel, and produces no registers. The serial module encodes a single message within the capacity and with counters up to 3, and names the cause otherwise.", "quantifier": "all module types, parameter words and value lists", "why_tests_cant": "All lists of values of all lengths and kinds.", "anchors": ["src/ur20_fbc_mod_tcp.rs::ProcessModbusTcpData::process_output_values"]}
{"id": "C76", "title": "Default modules", "statement": "The default module of every supported type is the module created from the factory parameter words; its current, voltage and temperature inputs are Disabled for all registers, and its analog outputs are Disabled and encode to zero for all values.", "quantifier": "all module types, all registers and values", "why_tests_cant": "All register contents and all numbers; the table of factory words is independent of the code.", "anchors": ["src/ur20_4ao_ui_16.rs::Mod::default", "src/ur20_4ai_tc_diag.rs::Mod::default", "src/ur20_1com_232_485_422.rs::Mod::default"]}
{"id": "C77", "title": "Exactly when a cycle panics", "statement": "next panics exactly if overflow checks are compiled in, the input image holds the data of all modules, and some module has an output offset before the output area (0x8000) while the output image holds the data of all modules before it.", "quantifier": "all couplers after any history, modules at any offsets, all images", "why_tests_cant": "All configurations, histories and images.", "anchors": ["src/ur20_fbc_mod_tcp.rs::Coupler::next", "src/ur20_fbc_mod_tcp.rs::prepare_raw_data_to_process"]}
{"id": "C78", "title": "What a failed cycle changes", "statement": "A cycle whose images cannot be decoded keeps every pending write and leaves no trace in later results, outputs() and reads; if the input image cannot be decoded it changes nothing. A cycle whose images can be decoded never panics and uses up every pending write even if it then fails to encode; only a serial module without one of its offsets keeps its write.", "quantifier": "all couplers after any history, modules at any offsets, all images (without overflow checks: output images of at most 63488 registers), all later calls", "why_tests_cant": "All histories before and after the failing cycle.", "anchors": ["src/ur20_fbc_mod_tcp.rs::Coupler::next"]}
{"id": "C79", "title": "Histories with failing cycles", "statement": "After any history, with failing cycles anywhere in it, the coupler shows the same outputs(), returns the same next results and the same serial reads as after the history without the cycles whose images could not be decoded, and every serial module stands where a lone message processor stands after its own frames and writes of the remaining cycles.", "quantifier": "all configurations with modules at any offsets (for the message processor: serial modules that start at a register), all histories of cycles, writes and reads (without overflow checks: output images of at most 63488 registers)", "why_tests_cant": "All histories with failures at any point.", "anchors": ["src/ur20_fbc_mod_tcp.rs::Coupler::next", "src/ur20_1com_232_485_422.rs::MessageProcessor::next"]}
{"id": "C80", "title": "What serial modules show", "statement": "After a cycle whose images can be decoded, also one that fails to encode, outputs() shows for a serial module the data of its output frame exactly if it has data and its segment number differs from the one in the frame of the last serial module before it (in this cycle or, if there is none, in the last decoded one); inputs() shows the data of its input frame exactly if data is available.", "quantifier": "all couplers with any number of serial modules after any history, all images (without overflow checks: output images of at most 63488 registers); the serial module starts at a register, other modules lie anywhere", "why_tests_cant": "All histories and any number of serial modules.", "anchors": ["src/ur20_fbc_mod_tcp.rs::Coupler::next"]}
{"id": "C81", "title": "What a failing cycle shows", "statement": "After a cycle whose images can be decoded, also one that fails to encode a pending value, inputs() and outputs() show for every channel of every non-serial module what the given images stand for.", "quantifier": "all couplers after any history, all images, all channels of all modules that start at a register or have one byte, next to modules at any offsets", "why_tests_cant": "All configurations, histories and images.", "anchors": ["src/ur20_fbc_mod_tcp.rs::Coupler::next"]}
{"id": "C82", "title": "Which error a cycle returns", "statement": "A cycle that does not panic fails with the error of the first module whose data the input image lacks; if there is none, of the first module whose data the output image lacks; if there is none, of the first module whose values cannot be written; if there is none it succeeds. Missing data is BufferLength, an offset inside the image that is no byte position is ModuleOffset, a pending value of the wrong kind or a counter preset out of range is ChannelValue, a module that is not where the modules before it end is ModuleOffset; there are no other errors.", "quantifier": "all couplers after any history, modules at any offsets, all images (without overflow checks: output images of at most 63488 registers)", "why_tests_cant": "All configurations, histories and images; several faults at once.", "anchors": ["src/ur20_fbc_mod_tcp.rs::Coupler::next", "src/ur20_fbc_mod_tcp.rs::prepare_raw_data_to_process", "src/ur20_fbc_mod_tcp.rs::process_output_values"]}
{"id": "C83", "title": "Lost transfers", "statement": "If images returned by next never reach the device (a failed write over the bus), every byte written to the processor still reaches the device exactly once and in order.", "quantifier": "all initial states and all interleavings of writes, reads, cycles, transfers, lost transfers and device steps", "why_tests_cant": "All interleavings with losses anywhere.", "anchors": ["src/ur20_1com_232_485_422.rs::MessageProcessor::next"]}
{"id": "C84", "title": "Crashes of the application", "statement": "If the application crashes at any point of the communication with a serial module and starts again with a new processor, no byte reaches the device twice or out of order, and what is written afterwards is delivered completely after what the device had taken over before.", "quantifier": "all initial states, all interleavings with any number of crashes and lost transfers", "why_tests_cant": "All crash points.", "anchors": ["src/ur20_1com_232_485_422.rs::MessageProcessor::new", "src/ur20_1com_232_485_422.rs::MessageProcessor::next"]}
{"id": "C85", "title": "A loop runs forever", "statement": "An application that gives every cycle the output image the cycle before returned never gets an error or a panic: if the first output image is complete (an image of zeros of the right length is), all input images are complete and only values of the right kind are written, every cycle of the loop succeeds, however long it runs and whatever is read or written in between, and every returned image has exactly the registers of the modules.", "quantifier": "all configurations, all numbers of rounds, all calls and input images", "why_tests_cant": "Unbounded loops with arbitrary calls and inputs.", "anchors": ["src/ur20_fbc_mod_tcp.rs::Coupler::next", "src/ur20_fbc_mod_tcp.rs::process_output_values"]}
{"id": "C86", "title": "Outputs keep their values", "statement": "In such a loop every digital, counter and analog output channel holds the value of the last set_output to it, however many cycles ago that was and whatever is written to other channels. An analog register may move towards zero by at most 5 counts in total (2 in the ranges 4-20 mA, 1-5 V and 2-10 V), rests after as many cycles, and does not move at all in the S5 format; a channel that is never written keeps what it held at the start.", "quantifier": "all configurations, all numbers of rounds, calls and input images, output modules whose bytes no later module uses and whose data starts at a register or has one byte (see C45)", "why_tests_cant": "Unbounded loops; interleavings of writes to all channels.", "anchors": ["src/ur20_fbc_mod_tcp.rs::Coupler::next", "src/ur20_fbc_mod_tcp.rs::Coupler::set_output"]}
{"id": "C87", "title": "Error texts", "statement": "Two errors with the same displayed text are equal, also if one of them wraps an I/O error with an arbitrary text; an error made from an I/O error shows its text.", "quantifier": "all errors and texts", "why_tests_cant": "All wrapped texts.", "anchors": ["src/error.rs::Error"]}
{"id": "C88", "title": "Standard reading and writing methods", "statement": "read_to_end on the reader of a serial module returns everything received and not read yet and always ends, whatever buffers it uses; read_exact succeeds exactly if enough bytes are there and takes the first of them (otherwise what was there is lost); write_all always succeeds and queues the bytes as one write does.", "quantifier": "all processor states, buffer sizes and data", "why_tests_cant": "All states and all buffer sizes the standard library may choose.", "anchors": ["src/ur20_1com_232_485_422.rs::MessageProcessor::read", "src/ur20_1com_232_485_422.rs::MessageProcessor::write"]}
{"id": "C89", "title": "Serial data with failing cycles", "statement": "Cycles that return an error lose no serial data: as long as images are not lost and the application does not crash, a device behind a serial module of a coupler takes over a prefix of the bytes written. (False for cycles that fail to encode; proved: cycles with undecodable images lose nothing; under any failing cycles, lost images and crashes the bytes taken over are a subsequence in order without repetition; received data is never affected.)", "quantifier": "all configurations, all interleavings of writes, reads, other calls, successful and failing cycles, transfers, losses, crashes and device steps; serial modules whose output bytes no later module uses", "why_tests_cant": "Unboundedly many schedules.", "anchors": ["src/ur20_fbc_mod_tcp.rs::Coupler::next", "src/ur20_1com_232_485_422.rs::MessageProcessor::next"]}
{"id": "C90", "title": "Recovery of a coupler", "statement": "After any history of failing cycles, lost images and crashes a serial module goes on: with complete images, one cycle per queued segment and one more deliver everything queued to the device; after a crash what is then written arrives directly after what the device had taken over.", "quantifier": "all configurations, serial modules whose output bytes no later module uses, histories in which values of the right kind are set, data and complete input images, once the module is initialised (two cycles)", "why_tests_cant": "All histories and all crash points.", "anchors": ["src/ur20_fbc_mod_tcp.rs::Coupler::next", "src/ur20_fbc_mod_tcp.rs::Coupler::new"]}
{"id": "C91", "title": "Progress of reception", "statement": "A complete cycle acknowledges the segment a serial device presents, and a device that presents one segment per cycle gets all of them across: a read returns them in order, after what was waiting.", "quantifier": "all configurations, serial modules whose output bytes no later module uses, histories in which values of the right kind are set, segments and complete input images, once the module is initialised (two cycles)", "why_tests_cant": "All histories and numbers of segments.", "anchors": ["src/ur20_fbc_mod_tcp.rs::Coupler::next", "src/ur20_fbc_mod_tcp.rs::Coupler::reader"]}
{"id": "C92", "title": "Sending with set_output", "statement": "Bytes set with set_output on a serial module are sent like written bytes: they count from the cycle that takes them, a later value set before that replaces them, and everything then arrives exactly once and in order, mixed with data from the writer; under failing cycles, losses and crashes at most once and in order; after any history an initialised module delivers them within one cycle per segment and one more; receiving is not affected.", "quantifier": "all configurations with serial modules whose output bytes no later module uses (for the delivery within a number of cycles: values of the right kind and complete images), values set, interleavings with writes, reads, other calls, cycles, losses, crashes and device steps", "why_tests_cant": "Unboundedly many schedules.", "anchors": ["src/ur20_fbc_mod_tcp.rs::Coupler::set_output", "src/ur20_fbc_mod_tcp.rs::Coupler::next"]}
{"id": "C93", "title": "Receiving with failures and restarts", "statement": "Whatever cycles fail, whatever images are lost and wherever the application is restarted, the bytes read from a serial module and those waiting to be read are bytes the device has shown to an initialised module, in order and each at most once per presentation (a segment still presented after a restart is presented again); since the last restart nothing shown is missing.", "quantifier": "all configurations, values set, interleavings with writes, reads, other calls, cycles, losses, crashes and device steps; serial modules whose output bytes no later module uses", "why_tests_cant": "Unboundedly many schedules and crash points.", "anchors": ["src/ur20_fbc_mod_tcp.rs::Coupler::next", "src/ur20_fbc_mod_tcp.rs::Coupler::reader", "src/ur20_1com_232_485_422.rs::MessageProcessor::next"]}
{"id": "C94", "title": "Floats are the stored 32 bits", "statement": "Computed on the 32 bits Rust stores for an f32, with signed zeros, every conversion gives the same result as on numbers: values that compare equal (the two zeros among them) and all NaNs are encoded to the same register; decoded analog values and temperatures are finite and never negative zero; a computed frequency is never negative, not even for a zero duration.", "quantifier": "all bit patterns, words, ranges, formats, counts and durations", "why_tests_cant": "2^32 patterns per range and format; signs of zeros are invisible to equality assertions.", "anchors": ["src/util.rs::analog_ui_value_to_u16", "src/util.rs::u16_to_analog_ui_value", "src/util.rs::u16_to_rtd_value", "src/ur20_4ai_tc_diag.rs::u16_to_thermal_value", "src/ur20_2fcnt_100.rs::ProcessInput::hertz"]}
{"id": "C95", "title": "Any number of serial devices at once", "statement": "A coupler whose serial modules are connected to any number of devices behaves towards each as if it were alone: under every interleaving of writes, reads, values set, other calls, cycles (succeeding or failing), transfers, losses, crashes and device steps, each device takes over only bytes written to its own module, once and in order (exactly those if nothing is lost); what is read from a module comes from its own device, and since the last start of the application it is all the device has shown; and rounds of a cycle in which all devices look at the image deliver everything on all modules at once, as many as the longest queue needs.", "quantifier": "all configurations with any number of connected serial modules whose output bytes no later module uses, all schedules, images and values (for the delivery in rounds: values of the right kind and complete images)", "why_tests_cant": "tests drive one processor; here several share the images, the map of pending values and the cycles of one coupler in every interleaving.", "anchors": ["src/ur20_fbc_mod_tcp.rs::Coupler::next", "src/ur20_fbc_mod_tcp.rs::Coupler::reader", "src/ur20_fbc_mod_tcp.rs::Coupler::writer", "src/ur20_fbc_mod_tcp.rs::Coupler::set_output", "src/ur20_1com_232_485_422.rs::MessageProcessor::next"]}
{"id": "C96", "title": "Registers composed from settings configure these settings", "statement": "For every parameter enumeration, `to_u16` gives the documented code and `from_u16` inverts it, accepting nothing else. Registers that hold the codes of some settings, field by field, create a module with exactly these settings; and the modules that can be created from the documented number of registers are exactly those whose limits are signed 16 bit numbers and whose analog substitute values some register value stands for.", "quantifier": "all supported module types, all settings, all register lists of the documented length", "why_tests_cant": "the settings of one module have up to 2^170 combinations, and the claim is about each of them.", "anchors": ["src/ur20_1com_232_485_422.rs::parameters_from_raw_data", "src/ur20_4ai_rtd_diag.rs::parameters_from_raw_data", "src/ur20_4ai_tc_diag.rs::parameters_from_raw_data", "src/lib.rs::RtdRange", "src/lib.rs::DataFormat"]}
{"id": "C97", "title": "Hash map iteration order is not observable", "statement": "The coupler keeps pending writes, serial processors and the bytes of a cycle in hash maps, whose iteration order is random. The results of every history of calls, and what `inputs()` and `outputs()` show after each call, are the same for all orders; and no index used in the loops of the coupler is out of bounds.", "quantifier": "all configurations, all histories of calls, all iteration orders chosen anew for every call, debug and release builds", "why_tests_cant": "the order is chosen by a random seed per map, and a test sees one order per run.", "anchors": ["src/ur20_fbc_mod_tcp.rs::Coupler::next", "src/ur20_fbc_mod_tcp.rs::Coupler::new", "src/ur20_fbc_mod_tcp.rs::process_output_values", "src/ur20_fbc_mod_tcp.rs::offsets_of_process_data", "src/ur20_fbc_mod_tcp.rs::module_list_from_registers"]}
{"id": "C98", "title": "A message processor used directly accounts for every byte", "statement": "For every sequence of cycles, reads and writes on a `MessageProcessor`, with any process data: what the reads returned followed by what is buffered is what arrived, in order and each frame once; the data of the segments started followed by what is queued is what was written; a cycle that keeps the segment number keeps the segment. A read overwrites the front of its buffer only. With counters of machine size, a cycle panics exactly if overflow checks are on, the module is initialised, something is unsent and the acknowledged number is the greatest one.", "quantifier": "all histories of calls, all frames and images (received data: frames as decoded from process data, with a number below four), all buffers and their contents, all counter widths from two bits, debug and release builds", "why_tests_cant": "histories and frames are unbounded, and the panic needs one counter value out of 2^64 in one state.", "anchors": ["src/ur20_1com_232_485_422.rs::MessageProcessor::next", "src/ur20_1com_232_485_422.rs::MessageProcessor::inc_cnt", "src/ur20_1com_232_485_422.rs::Read::read", "src/ur20_1com_232_485_422.rs::Write::write"]}
{"id": "C99", "title": "A coupler accounts for every byte of each serial module", "statement": "For every history of calls on a coupler, with any images and any failing cycles, and every serial module of it: what the reads from `reader(j)` returned, followed by what further reads will return, is what arrived in the images that could be decoded, in order and each frame once. What was started as segments in the returned images, followed by what is queued, is in order and without repetition part of what was given to the module by `writer(j)` and `set_output`, and all of it if no cycle failed to encode. A writer exists exactly for serial modules and accepts every buffer as a whole.", "quantifier": "all configurations, serial modules that start at a register, other modules at any offsets, all histories of calls, all images (without overflow checks: output images of at most 63488 registers), for what is sent modules whose output bytes no later module uses, any number of serial modules, debug and release builds", "why_tests_cant": "histories, images and the interleaving of calls to several modules are unbounded, and failing cycles can occur at any point.", "anchors": ["src/ur20_fbc_mod_tcp.rs::Coupler::next", "src/ur20_fbc_mod_tcp.rs::Coupler::reader", "src/ur20_fbc_mod_tcp.rs::Coupler::writer", "src/ur20_fbc_mod_tcp.rs::Coupler::set_output", "src/ur20_1com_232_485_422.rs::MessageProcessor::next"]}
{"id": "C100", "title": "The calls between two cycles can be interleaved in any way", "statement": "If two histories of calls have, for each output channel and for each direction of each serial module, the same calls in the same order between the same cycles, then the coupler is in the same state after them, all calls and cycles return the same results, and `inputs()` and `outputs()` show the same. Parts of an application that use different channels, or that read from and write to a serial module, cannot influence each other by the order of their calls.", "quantifier": "all coupler states, all pairs of histories that are interleavings of each other, debug and release builds", "why_tests_cant": "the number of interleavings grows exponentially with the number of calls, and histories are unbounded.", "anchors": ["src/ur20_fbc_mod_tcp.rs::Coupler::set_output", "src/ur20_fbc_mod_tcp.rs::Coupler::reader", "src/ur20_fbc_mod_tcp.rs::Coupler::writer", "src/ur20_fbc_mod_tcp.rs::Coupler::next"]}
{"id": "C101", "title": "What happens to other modules makes no difference for a module", "statement": "Take two histories in which all cycles succeed. If they look the same to a module (the same calls with its number in the same order, and its own bytes of the two images are the same in each cycle), then the application sees the same of this module in both: the results of these calls, its values in `inputs()`, its values in `outputs()`, and its own bytes of the returned images. Values, images, errors or pending outputs of other modules never leak into it. The only exception is what `outputs()` shows of a serial module, which does depend on other serial modules (see C58 and C80).", "quantifier": "all configurations that pass construction; all modules of it whose output bytes no later module uses and whose output data starts at a register or has just one byte; all pairs of histories with successful cycles that agree for the module; debug and release builds", "why_tests_cant": "it relates pairs of unbounded histories and images; a test compares one pair.", "anchors": ["src/ur20_fbc_mod_tcp.rs::Coupler::next", "src/ur20_fbc_mod_tcp.rs::process_input_data", "src/ur20_fbc_mod_tcp.rs::process_output_data", "src/ur20_fbc_mod_tcp.rs::process_output_values", "src/ur20_fbc_mod_tcp.rs::prepare_raw_data_to_process", "src/ur20_fbc_mod_tcp.rs::Coupler::set_output", "src/ur20_fbc_mod_tcp.rs::Coupler::reader", "src/ur20_fbc_mod_tcp.rs::Coupler::writer"]}
{"id": "C102", "title": "A coupler does not grow without bound", "statement": "Values set with `set_output` and not yet written are kept for existing channels only, at most one for each, so there are never more of them than channels. A cycle, failing or not, adds at most the data of one frame (6 or 14 bytes) to the bytes waiting at a serial module, a read removes what it returns, and no other call changes their number. An application that reads with a buffer of at least one frame between any two cycles therefore never has more than one frame waiting.", "quantifier": "all configurations that pass construction, all histories of calls of any length, also with failing cycles; for the serial part: serial modules with both offsets, at registers, images of at most 63488 registers in release builds", "why_tests_cant": "leaks show only in long runs; a test runs a few cycles.", "anchors": ["src/ur20_fbc_mod_tcp.rs::Coupler::set_output", "src/ur20_fbc_mod_tcp.rs::Coupler::next", "src/ur20_fbc_mod_tcp.rs::Coupler::reader", "src/ur20_1com_232_485_422.rs::MessageProcessor::next"]}
{"id": "C103", "title": "Setting up a coupler from the registers of a station", "statement": "An application that reads the module list from 0x2A00, the offsets from 0x2B00 and for every module the parameters from the address and with the count that `param_addresses_and_register_counts` returns, and passes them to `Coupler::new`, gets a coupler exactly if the registers describe the modules: known ids of supported types, and parameters that stand for settings. The coupler then has these modules in order, with these settings and bit addresses, no values and nothing to write. Otherwise it gets `UnknownModule` for an unknown id, `ChannelParameter` for parameters without meaning if all types are supported, and a panic for an unsupported type among acceptable modules.", "quantifier": "all register contents of a station with 1 to 64 modules of any types", "why_tests_cant": "all register contents, module mixes and station sizes; a test reads one recorded station.", "anchors": ["src/ur20_fbc_mod_tcp.rs::module_list_from_registers", "src/ur20_fbc_mod_tcp.rs::param_addresses_and_register_counts", "src/ur20_fbc_mod_tcp.rs::Coupler::new", "src/ur20_fbc_mod_tcp.rs::ADDR_CURRENT_MODULE_LIST", "src/ur20_fbc_mod_tcp.rs::ADDR_MODULE_OFFSETS"]}
{"id": "C104", "title": "Modules whose public settings were edited do not panic", "statement": "The settings of a module are public fields. Whatever they are set to, no method of the module that converts process data or channel values panics: a module with another number of channel parameter sets than channels rejects data with an error (`BufferLength` or `ChannelValue` for wrong data, `ChannelParameter` otherwise), and a module with one set per channel does what a module created from some parameter registers does, whatever limits, substitute values, units and flags its settings hold.", "quantifier": "all modules of all types with any settings, all registers and values", "why_tests_cant": "all settings an application can write into the public fields, any numbers of parameter sets, all registers.", "anchors": ["src/ur20_4ao_ui_16.rs::Mod", "src/ur20_4ao_ui_16_diag.rs::Mod", "src/ur20_4ai_rtd_diag.rs::Mod", "src/ur20_2fcnt_100.rs::Mod", "src/ur20_4ai_tc_diag.rs::Mod"]}
{"id": "C105", "title": "Settings that do not take part in conversions make no difference", "statement": "Two modules of the same type that agree on ranges, data formats and frame size convert all registers and values alike. Two configurations of a coupler that differ only in other parameter registers (delays, filters, substitute values, limits, diagnostics, units, connection types, conversion times, settings of the serial line) and are both accepted yield couplers that return the same results, values and images in every history of calls.", "quantifier": "all pairs of modules and of configurations, all histories of calls, all images, debug and release builds", "why_tests_cant": "all pairs of settings and all histories; a test compares two settings in one history.", "anchors": ["src/ur20_fbc_mod_tcp.rs::Coupler::new", "src/ur20_fbc_mod_tcp.rs::Coupler::next", "src/util.rs::u16_to_analog_ui_value", "src/ur20_4ai_rtd_diag.rs::Mod"]}
{"id": "C106", "title": "Names say channels and category", "statement": "The number in the name of a module type is its channel_count: power feeds have none, and only the energy meter UR20_3EM_230V_AC (eight channels) is an exception. The letters after the number and the next part of the name determine the category it reports, and exactly the power feeds have no channels.", "quantifier": "all module types", "why_tests_cant": "a test checks some of the types; the relation holds for every type and is independent of the tables in the code.", "anchors": ["src/lib.rs::ModuleType::channel_count", "src/lib.rs::From<ModuleType> for ModuleCategory"]}
{"id": "C107", "title": "A held analog output settles", "statement": "When no new value is written to an enabled analog output channel, its register moves by at most 5 steps in total over any number of cycles (at most 2 in the ranges 4-20 mA, 1-5 V and 2-10 V), and from the fifth (second) cycle on it does not change any more. In format S5 it never changes.", "quantifier": "all registers, ranges, formats and numbers of cycles; for a coupler: analog modules whose data starts at a register and whose output bytes no later module uses", "why_tests_cant": "the drift comes from float rounding of single registers and adds up over cycles; only few registers reach the bound.", "anchors": ["src/util.rs::u16_to_analog_ui_value", "src/util.rs::analog_ui_value_to_u16", "src/ur20_fbc_mod_tcp.rs::Coupler::next"]}
{"id": "C108", "title": "A module behaves as if it were alone", "statement": "Take any history of a coupler in which all cycles succeed, and a second coupler with just one of the modules. Give the second one the calls with the number of the module and images with just its bytes: all cycles succeed, the calls return the same, and the values of the module in inputs() and outputs() (not of a serial module, see C58) and its bytes of the returned images are the same. In general it makes no difference for a module in which coupler, in which position, with which neighbours and at which registers it is.", "quantifier": "all configurations that pass construction; all modules whose output bytes no later module uses and whose data starts at a register or has just one byte; all histories with successful cycles; debug and release builds", "why_tests_cant": "it relates couplers of different size over unbounded histories; a test has one coupler.", "anchors": ["src/ur20_fbc_mod_tcp.rs::Coupler::new", "src/ur20_fbc_mod_tcp.rs::Coupler::next", "src/ur20_fbc_mod_tcp.rs::process_input_data", "src/ur20_fbc_mod_tcp.rs::process_output_data", "src/ur20_fbc_mod_tcp.rs::process_output_values", "src/ur20_fbc_mod_tcp.rs::prepare_raw_data_to_process", "src/ur20_fbc_mod_tcp.rs::Coupler::set_output", "src/ur20_fbc_mod_tcp.rs::Coupler::reader", "src/ur20_fbc_mod_tcp.rs::Coupler::writer"]}
{"id": "C109", "title": "Which configurations can run", "statement": "A coupler whose configuration is accepted by new can run exactly if every module with an input offset has process input data and starts at a byte, and every module with an output offset has process output data and starts where the modules before it end. Otherwise no cycle ever succeeds, whatever was called before and whatever the images are; else a cycle with images of zeros succeeds unless a value of the wrong kind is pending. In particular a module of two or more output bytes in the high byte of a register has to be the last output module.", "quantifier": "all configurations, all histories, all images; for the value set last: modules whose output bytes no later module uses", "why_tests_cant": "a test has some images and cannot show that none would do.", "anchors": ["src/ur20_fbc_mod_tcp.rs::Coupler::new", "src/ur20_fbc_mod_tcp.rs::Coupler::next", "src/ur20_fbc_mod_tcp.rs::process_input_data", "src/ur20_fbc_mod_tcp.rs::process_output_data", "src/ur20_fbc_mod_tcp.rs::process_output_values", "src/ur20_fbc_mod_tcp.rs::prepare_raw_data_to_process"]}
{"id": "C110", "title": "The calls made on a coupler determine its cycles", "statement": "What a coupler does in a cycle can be told from the calls made on it: the value that waits for a channel is that of the last successful set_output to it since the last cycle whose images could be decoded. Whether the cycle succeeds, which error it returns otherwise and what the returned image has for each channel follow from these values, the configuration and the images. A coupler without serial modules remembers nothing else: two histories that leave the same values waiting are followed by the same results.", "quantifier": "all configurations, all histories with successful and failing calls and cycles, all images (without overflow checks: output images of at most 63488 registers), debug and release builds, for the returned image output modules whose bytes no later module uses and whose data starts at a register or has one byte (see C45)", "why_tests_cant": "a test follows some histories, and the memory of a coupler shows only after further calls.", "anchors": ["src/ur20_fbc_mod_tcp.rs::Coupler::next", "src/ur20_fbc_mod_tcp.rs::Coupler::set_output", "src/ur20_fbc_mod_tcp.rs::Coupler::new"]}
{"id": "C111", "title": "Output values survive lost images", "statement": "An application calls next in a loop and sends the returned images to the device; some of them get lost on the way. After a round whose image arrives the device has on, for every output channel that is not serial, the value of the last set_output to it (analog values up to the drift of C86), whether the application uses the last returned image for the next cycle or reads the output image back from the device. (False if it reads back: values set in a round whose image is lost never arrive. Proved: it holds with the last returned image; with reading back the device has the values of the rounds whose image arrived.)", "quantifier": "all configurations, all numbers of rounds, all calls, input images and patterns of losses, output modules whose bytes no later module uses and whose data starts at a register or has one byte (see C45)", "why_tests_cant": "losses can hit any cycle, and the effect shows only in later rounds.", "anchors": ["src/ur20_fbc_mod_tcp.rs::Coupler::next", "src/ur20_fbc_mod_tcp.rs::Coupler::set_output"]}
{"id": "C112", "title": "Restarting the application does not disturb the outputs", "statement": "An application that reads the output image of every cycle back from the device can crash anywhere and start again with a new coupler: the device has on, for every output channel that is not serial, the value of the last set_output in the rounds whose image arrived (analog values up to the drift of C86), or what it had on at the start. Values set but not sent are lost with the crash; the first cycles after a restart change nothing.", "quantifier": "all configurations, all numbers of rounds, crashes and lost images at any point, all calls and input images, output modules whose bytes no later module uses and whose data starts at a register or has one byte (see C45)", "why_tests_cant": "crash points and histories cannot be enumerated.", "anchors": ["src/ur20_fbc_mod_tcp.rs::Coupler::new", "src/ur20_fbc_mod_tcp.rs::Coupler::next", "src/ur20_fbc_mod_tcp.rs::Coupler::set_output"]}
{"id": "C113", "title": "Counter and safety values by way of From", "statement": "A counter output converted with into() and given to set_output is accepted for both channels of a counter module, and the next cycle that succeeds sends its duration in microseconds and its command in the registers of the channel. What inputs() shows for counter and safe power feed channels after a successful cycle is the conversion of a value with the fields of the registers.", "quantifier": "all couplers after any history, modules at register boundaries whose output bytes no later module uses, images, durations and commands", "why_tests_cant": "positions, images and histories cannot be enumerated.", "anchors": ["src/ur20_2fcnt_100.rs::From<ProcessInput>", "src/ur20_2fcnt_100.rs::From<ProcessOutput>", "src/ur20_pf_o_1di_sil.rs::From<ProcessInput>", "src/ur20_fbc_mod_tcp.rs::Coupler::next"]}
{"id": "C114", "title": "An output wired to an input", "statement": "If a digital output or relay is wired to a digital input, of the same or another coupler, inputs() shows the bit given to set_output. If an analog output is wired to an analog input, with any enabled ranges and formats, inputs() shows a number that differs from the one given to set_output by at most the error of the wiring, 17/16 of a raw unit of the output and 1/128 of a raw unit of the input.", "quantifier": "all pairs of couplers after any histories, output modules whose bytes no later module uses and whose data starts at a register or has one byte (see C45), analog input modules whose data starts at a register, channels, images, bits, numbers in range and wiring errors", "why_tests_cant": "numbers, module positions, settings and histories cannot be enumerated.", "anchors": ["src/ur20_fbc_mod_tcp.rs::Coupler::set_output", "src/ur20_fbc_mod_tcp.rs::Coupler::next", "src/ur20_fbc_mod_tcp.rs::Coupler::inputs"]}
{"id": "C115", "title": "A serial cable between two couplers", "statement": "Connect the device of a serial module of one coupler to the device of a serial module of another: each presents what the other has taken over, in segments of any size. Whatever cycles fail, whatever images are lost on both sides and wherever the first application crashes: what the second application has read and can read are bytes that the first one has written, each at most once and in this order; if the second application crashes too, this holds for what it reads since its last start. If nothing is lost on the first side and the second module is initialised before segments are presented to it, they arrive exactly once; after enough further rounds of both couplers everything written on the first side can be read on the second.", "quantifier": "all pairs of couplers with any modules and parameters, wirings, schedules of calls, cycles, device steps, failing cycles, lost images and crashes of the applications, contents and segment sizes; connected modules whose output bytes no later module uses", "why_tests_cant": "schedules over two applications, two couplers and their devices are unbounded; no test can show that none of them loses, doubles or reorders a byte.", "anchors": ["src/ur20_fbc_mod_tcp.rs::Coupler::writer", "src/ur20_fbc_mod_tcp.rs::Coupler::reader", "src/ur20_fbc_mod_tcp.rs::Coupler::next"]}
{"id": "C116", "title": "Every change of an input is visible", "statement": "If inputs() shows the same value for an enabled channel after two cycles of the same or of two equally configured couplers, the input images agree in the data of this channel: the bit, the register of an analog, thermometer or thermocouple channel, the count, status and duration of a counter, the status bits of a safety module. A register of an analog channel that stands for more shows a larger number.", "quantifier": "all couplers after any histories, pairs of input images, modules at register boundaries or of one byte, channels, ranges and formats", "why_tests_cant": "all pairs of registers, ranges, positions and histories would have to be compared.", "anchors": ["src/ur20_fbc_mod_tcp.rs::Coupler::next", "src/ur20_fbc_mod_tcp.rs::Coupler::inputs", "src/util.rs::u16_to_analog_ui_value", "src/util.rs::u16_to_rtd_value"]}
{"id": "C117", "title": "Exactly which output images an application can get", "statement": "For every image the modules can be given (any bits, any analog registers but 0 for disabled channels, counter presets up to 0x7FFFFF us with at most one command bit) there are values that set_output accepts and with which the next cycle succeeds, for any complete images and whatever was pending before, and returns that image in all channels of modules that are not serial. No cycle ever returns anything else for these channels.", "quantifier": "all configurations, images to be set, couplers after any history, images given to the cycle; modules whose output bytes no later module uses and whose data starts at a register or has one byte (see C45)", "why_tests_cant": "every image would have to be tried on every configuration and history.", "anchors": ["src/ur20_fbc_mod_tcp.rs::Coupler::set_output", "src/ur20_fbc_mod_tcp.rs::Coupler::next", "src/util.rs::analog_ui_value_to_u16"]}
{"id": "C118", "title": "Writing back what outputs() shows", "statement": "Calling set_output with values that outputs() shows, for any channels of modules that are not serial, makes no difference to the next cycle if it is given the same output image again: it has the same result and, if it succeeds, leaves the same coupler. Given later and with any other image, such a value puts the data of its channel back to what it was without a pending value.", "quantifier": "all couplers after any history, sets of shown values, images; for the last sentence modules whose output bytes no later module uses", "why_tests_cant": "all images, formats and subsets of channels would have to be tried, and decoding and encoding are not exact inverses.", "anchors": ["src/ur20_fbc_mod_tcp.rs::Coupler::set_output", "src/ur20_fbc_mod_tcp.rs::Coupler::outputs", "src/ur20_fbc_mod_tcp.rs::Coupler::next"]}
{"id": "C119", "title": "Debug and release builds behave alike", "statement": "Compiled with and without overflow checks, a coupler shows an application the same results, inputs and outputs of any history of calls, until a cycle panics with overflow checks. Without them that cycle fails too: it never returns an image, and it returns the error BufferLength if its output image has at most 0xF800 registers. So a program that does not panic in a debug build does exactly the same in a release build. The parameter windows of up to 64 modules are the same as well.", "quantifier": "all couplers, histories of calls, images and module lists", "why_tests_cant": "tests run in one kind of build only, and histories and images are unbounded.", "anchors": ["src/ur20_fbc_mod_tcp.rs::Coupler::next", "src/ur20_fbc_mod_tcp.rs::prepare_raw_data_to_process", "src/ur20_fbc_mod_tcp.rs::param_addresses_and_register_counts"]}
{"id": "C120", "title": "Every list of modules can be run", "statement": "For every list of up to 64 supported modules with acceptable parameters there is an arrangement of the process data, with one module after the other and modules of one byte sharing a register, with which a coupler can be created and run forever. Every module with outputs or inputs has a place for them, no two modules share a byte, and, starting with an output image of zeros, every cycle of a loop that writes back the image it got succeeds if the input images are complete and the values written are of the right kinds.", "quantifier": "all lists of up to 64 modules, parameter words, sequences of rounds and input images", "why_tests_cant": "there are infinitely many rounds and more lists of modules than can be tried.", "anchors": ["src/ur20_fbc_mod_tcp.rs::Coupler::new", "src/ur20_fbc_mod_tcp.rs::Coupler::next", "src/ur20_fbc_mod_tcp.rs::prepare_raw_data_to_process"]}
{"id": "C121", "title": "Frequencies compare as counts and durations do", "statement": "If a counter counted at least as many pulses as another one in at most the same time, its frequency is at least as high. A frequency is zero exactly if nothing was counted in a time that is not zero. For up to 2^24 pulses in a whole number of seconds it is the f32 next to the exact quotient. All durations a module reports are below 17 seconds; the comparison holds for all durations up to 2^24 seconds.", "quantifier": "all counter values and durations", "why_tests_cant": "there are 2^32 counts and 2^27 durations, and a comparison takes two of each.", "anchors": ["src/ur20_2fcnt_100.rs::ProcessInput::hertz", "src/ur20_2fcnt_100.rs::process_input_data"]}
{"id": "C122", "title": "Adding modules at the end of a station", "statement": "If modules are added at the end of a station, nothing changes for the modules before: take any history with the extended station in which all cycles succeed. The same calls, without those for the modules added, and with the same images, succeed with the original station, return the same, and show the same in inputs() and in outputs() (except for serial modules, see C58). The image returned for the extended station begins with the one returned for the original station, but for the high byte of its last register if the first module added shares that register.", "quantifier": "all configurations and extensions of them that pass construction, all histories with successful cycles, debug and release builds", "why_tests_cant": "stations and histories are unbounded, and a test has one station.", "anchors": ["src/ur20_fbc_mod_tcp.rs::Coupler::new", "src/ur20_fbc_mod_tcp.rs::Coupler::next", "src/ur20_fbc_mod_tcp.rs::process_output_values"]}
{"id": "C123", "title": "Power failures of the station", "statement": "When the station loses power and comes back while the application goes on (the output image is cleared, the serial module counts from new numbers), the device takes over what was written to the serial processor at most once and in order, and the application reads exactly what the device has shown. If the power fails between two cycles, only the segment in flight is lost in the transmit direction, and the transmission goes on with what is queued; nothing shown is ever read twice or out of order; and everything shown is read unless the first segment afterwards has the number of the last one shown before.", "quantifier": "all schedules of calls, cycles, device steps, lost transfers, crashes of the application and power failures, all numbers the device starts with", "why_tests_cant": "a power failure can happen at any point of any history.", "anchors": ["src/ur20_1com_232_485_422.rs::MessageProcessor::next", "src/ur20_1com_232_485_422.rs::MessageProcessor::write", "src/ur20_1com_232_485_422.rs::MessageProcessor::read"]}
{"id": "C124", "title": "Power failures of a station with any number of serial devices", "statement": "If the station loses power and comes back between two cycles while the application goes on with its coupler, every serial device takes over bytes written to its own module only, each at most once and in order; at most the segment in flight on each module is lost; and cycles deliver what is queued. What is read from a module was shown by its own device, each segment at most once and in order, even if the power fails in the middle of a cycle; and it is everything the device has shown if the first segment after a power failure has another number than the last one shown before and the application does not crash.", "quantifier": "all configurations, serial modules whose output bytes no later module uses, all histories of calls, cycles, failing cycles, lost images, crashes, device steps and power failures, all numbers the devices start with", "why_tests_cant": "a power failure can happen at any point of any history, with any number of devices.", "anchors": ["src/ur20_fbc_mod_tcp.rs::Coupler::next", "src/ur20_fbc_mod_tcp.rs::Coupler::writer", "src/ur20_1com_232_485_422.rs::MessageProcessor::next"]}
{"id": "C125", "title": "No output is switched on by itself after a power failure", "statement": "The application reads the output image back from the station, cycles, and writes the returned image. When the station comes up after a power failure with all outputs off, an output channel of a module that is not serial stays off through all rounds, lost images, crashes of the application and further power failures until a round with a set_output for it arrives: the digital bit is clear, the analog register zero, the counter without preset and command. From then on the station has the value of the last such set_output on (analog values up to the drift of C86), until the next power failure. Values set before the power failure do not come back.", "quantifier": "all configurations, all histories of rounds, lost images, crashes and power failures, all output channels of modules whose bytes no later module uses and whose data starts at a register or has one byte (see C45)", "why_tests_cant": "an output that is switched on by a stale value after some particular history is not found by trying a few histories.", "anchors": ["src/ur20_fbc_mod_tcp.rs::Coupler::next", "src/ur20_fbc_mod_tcp.rs::Coupler::set_output", "src/ur20_fbc_mod_tcp.rs::Coupler::new"]}
{"id": "C126", "title": "Failures caused by other modules do not reach a module", "statement": "Take two couplers that have a module of the same type with the same parameters, and any two histories with any failing cycles. If they look the same to the module (the same calls with its number, and its own bytes are the same in each cycle whose images can be decoded), then the application sees the same of it: the results of these calls, its values in inputs() and outputs() after each of these cycles, also after those that fail because a value of some module cannot be written, and its bytes of the image if both cycles return one. The only exception is what outputs() shows of a serial module (see C58).", "quantifier": "all pairs of couplers, modules whose output bytes no later module uses and whose output data starts at a register or has one byte, all histories of calls, cycles and failing cycles (without overflow checks: output images of at most 63488 registers), debug and release builds", "why_tests_cant": "a failure can happen in any cycle for any of several reasons, in any combination with the calls for other modules.", "anchors": ["src/ur20_fbc_mod_tcp.rs::Coupler::next", "src/ur20_fbc_mod_tcp.rs::Coupler::set_output"]}
{"id": "C127", "title": "How fast a serial module sends", "statement": "After any history, once everything is sent: k cycles after a write, each followed by a look of the device, the device has taken over exactly the first k times 6 (14) bytes of the buffer, or all of it; several buffers written at once arrive as soon as there were as many such cycles as the buffers need frames, counted per buffer, and not earlier.", "quantifier": "all configurations, serial modules whose output bytes no later module uses, histories with failing cycles, losses and crashes, buffers and numbers of cycles", "why_tests_cant": "the history, the sizes of the buffers and the number of cycles are unbounded.", "anchors": ["src/ur20_1com_232_485_422.rs::MessageProcessor::write", "src/ur20_1com_232_485_422.rs::MessageProcessor::next", "src/ur20_fbc_mod_tcp.rs::Coupler::next", "src/ur20_fbc_mod_tcp.rs::Coupler::writer"]}
{"id": "C128", "title": "Sending and receiving at the same time", "statement": "Sending and receiving do not slow each other down: after any history, once everything is sent and the last segment acknowledged, if the device presents a segment in each of k cycles and looks at the image after each, then it has taken over the first k times 6 (14) bytes of a buffer written before (or all of it), and a read returns all its segments in order, after what was waiting.", "quantifier": "all configurations, serial modules whose output bytes no later module uses, histories with failing cycles, losses and crashes, buffers, segments and numbers of cycles", "why_tests_cant": "the history, the sizes of the buffers and the number of cycles are unbounded.", "anchors": ["src/ur20_1com_232_485_422.rs::MessageProcessor::next", "src/ur20_1com_232_485_422.rs::MessageProcessor::write", "src/ur20_fbc_mod_tcp.rs::Coupler::next", "src/ur20_fbc_mod_tcp.rs::Coupler::reader", "src/ur20_fbc_mod_tcp.rs::Coupler::writer"]}
{"id": "C129", "title": "Serial data with late and lost images", "statement": "An application uses the image returned by the last cycle for the next one (instead of reading the output image back from the device, see C83), starting with the image of the device. Images of the inputs and of the outputs are on the way for any time, in order; any of them may get lost; the application may use an old image of the inputs for any number of cycles and send its image any number of times. Then for each serial module the bytes taken over by the device, followed by those of the last returned image that are not taken over yet and those queued, are the bytes written; and after the initialisation each segment of the device is received exactly once and in order, except those presented before the end of the initialisation and, as long as it has not been seen, the newest one. When nothing is on the way any more, one round per queued segment and three more deliver everything, and after one round the application has received everything presented since the end of the initialisation.", "quantifier": "all schedules of writes, reads, calls for other modules, cycles, transfers, losses in both directions, repetitions and steps of the device; the device does not restart its counting, the application does not crash, and if a cycle fails then because its images cannot be decoded (see C38); for a module whose output bytes no later module uses", "why_tests_cant": "delays and losses in two directions can be combined in unboundedly many ways; a lost or doubled segment needs a particular one.", "anchors": ["src/ur20_1com_232_485_422.rs::MessageProcessor::next", "src/ur20_fbc_mod_tcp.rs::Coupler::next", "src/ur20_fbc_mod_tcp.rs::Coupler::writer", "src/ur20_fbc_mod_tcp.rs::Coupler::reader"]}
{"id": "C130", "title": "Output values with late and lost images", "statement": "An application uses the image returned by the last cycle for the next one and sends the returned images to the device, possibly several times. They are on the way for any time, in order, and any of them may get lost. At any time the device has on, for every output channel that is not serial, the value of the last set_output made before the cycle its image comes from (analog values up to the drift of C107), or what was on at the start if there was none; that cycle never moves back, so no channel returns to an older value; and when an image sent after the last set_output arrives the device has the values of all calls. When the application restarts, with a new coupler and the image of the device, this continues with the calls that have arrived.", "quantifier": "all configurations, all schedules of calls, cycles, failing cycles with undecodable images, repetitions, deliveries, losses and restarts of the application (which lose what is on the way); output modules whose bytes no later module uses and whose data starts at a register or has one byte (see C45)", "why_tests_cant": "the images that are on the way at the same time, their losses and the calls between them can be combined in unboundedly many ways.", "anchors": ["src/ur20_fbc_mod_tcp.rs::Coupler::next", "src/ur20_fbc_mod_tcp.rs::Coupler::set_output"]}
{"id": "C131", "title": "Two serial modules on a cable with late and lost images", "statement": "Two couplers, each with its own application and its own connection on which images of both directions are late or get lost as in C129, have serial modules connected by a cable: each device presents what the other has taken over, in segments of any size. Then what the second application has received is at any time a contiguous part of what the first has written, and the same in the other direction; if the second device presents nothing before its module has been initialised then nothing is lost, doubled or reordered: what the second application has received, at most one presented segment, the bytes on the cable, the bytes of the last image and the bytes queued are, in this order, what has been written. When nothing is on the way any more then rounds without losses, enough for the bytes written, bring all of them to the second application.", "quantifier": "all configurations of the two couplers, all schedules of the applications, connections, devices and the cable; cycles that fail do so because their images cannot be decoded; serial modules whose output bytes no later module uses", "why_tests_cant": "two couplers with independent delays and losses in four directions; no test covers the interleavings.", "anchors": ["src/ur20_1com_232_485_422.rs::MessageProcessor::next", "src/ur20_fbc_mod_tcp.rs::Coupler::next", "src/ur20_fbc_mod_tcp.rs::Coupler::writer", "src/ur20_fbc_mod_tcp.rs::Coupler::reader"]}
{"id": "C132", "title": "An output wired to an input, with late and lost images", "statement": "A digital output, relay or analog output of one station is wired to an input of a second one. The images the first application sends and the images the second application gets are on the way for any time, in order, and any of them may get lost. After every successful cycle of the second application inputs() shows the value of the last set_output among the first so many calls of the first application (a bit exactly, a number up to the error of the wiring, the resolution of the two channels and the drift of C107), or what was on at the start if there was none among them; the number of these calls never decreases, so no older value comes back; and if a cycle of each application succeeds and the images in between arrive, they are all calls.", "quantifier": "all configurations of the two stations, channels, ranges, formats, schedules of calls, cycles, deliveries, losses and restarts of the first application; outputs whose bytes no later module uses and whose data starts at a register or has one byte (see C45)", "why_tests_cant": "delays and losses on two connections can be combined in unboundedly many ways with the calls and cycles of two applications.", "anchors": ["src/ur20_fbc_mod_tcp.rs::Coupler::next", "src/ur20_fbc_mod_tcp.rs::Coupler::set_output", "src/ur20_fbc_mod_tcp.rs::Coupler::inputs"]}
{"id": "C133", "title": "Serial data over restarts of the application, with late and lost images", "statement": "The application of a station with a serial module is restarted any number of times; the images on the way are lost and it begins with a new coupler and the images it reads from the station, which may still carry data of the previous run. Within each run the bytes the device takes over, followed by those of the last returned image it has not taken over yet and those still queued, are exactly the bytes written in this run; only the segment that was waiting in the image of the station at the start can come before them, once and completely. The application gets every segment of the device presented after the two initialisation cycles exactly once and in order, and nothing before. When the images arrive again everything written in this run reaches the device within a number of rounds bounded by the queue, and one round is enough to have received everything presented since the initialisation. Over all runs no byte is taken over twice or out of order.", "quantifier": "all states of the device and its image at the start, schedules of calls, cycles, deliveries, losses and looks of the device in each run, numbers of runs and restart points, for a module whose output bytes no later module uses", "why_tests_cant": "a restart can happen at every point of every schedule of delays and losses, and the next run continues with what is left in the image.", "anchors": ["src/ur20_1com_232_485_422.rs::MessageProcessor::next", "src/ur20_1com_232_485_422.rs::MessageProcessor::write", "src/ur20_1com_232_485_422.rs::MessageProcessor::read", "src/ur20_fbc_mod_tcp.rs::Coupler::next"]}
{"id": "C134", "title": "The source text itself behaves as the model", "statement": "The functions of the source, translated mechanically statement by statement from the Rust text, and the hand-written model show the same thing: constructing a coupler from any configuration succeeds, fails with the same error or panics in both, and every history of calls and cycles on the coupler then shows the same sequence of results, errors, panics, inputs, outputs and process images. The order in which hash maps are iterated makes no difference.", "quantifier": "all configurations, both overflow-check settings, all histories of calls and cycles with all process images, all iteration orders of the hash maps, all contents of unspecified buffers", "why_tests_cant": "a model agrees with the code on the tests one thought of; here the agreement holds for every configuration and history.", "anchors": ["src/ur20_fbc_mod_tcp.rs::Coupler::new", "src/ur20_fbc_mod_tcp.rs::Coupler::next", "src/ur20_fbc_mod_tcp.rs::Coupler::set_output", "src/ur20_fbc_mod_tcp.rs::Coupler::inputs", "src/ur20_fbc_mod_tcp.rs::Coupler::outputs", "src/ur20_fbc_mod_tcp.rs::Coupler::reader", "src/ur20_fbc_mod_tcp.rs::Coupler::writer"]}
{"id": "C135", "title": "Every module of the source text behaves as in the model", "statement": "A module made from parameter registers by the translated source has the same outcome as in the model (the module, the same error, or a panic), has the same parameters, and its type, byte counts, decoding of inputs, decoding of outputs and encoding of outputs are those of the model on all data. The default parameters and the frequency shown by a counter input are the same too.", "quantifier": "all module types, all parameter registers, all register data and all lists of channel values, both overflow-check settings", "why_tests_cant": "the modules have large parameter and data spaces; agreement on sampled registers says nothing about the others.", "anchors": ["src/ur20_fbc_mod_tcp.rs::ModbusParameterRegisterCount", "src/ur20_di_generic.rs::Mod", "src/ur20_do_generic.rs::Mod", "src/ur20_4ai_tc_diag.rs::Mod", "src/ur20_2fcnt_100.rs::ProcessInput::hertz", "src/ur20_1com_232_485_422.rs::Mod"]}
{"id": "C136", "title": "Discovery, names and conversions of the source text are those of the model", "statement": "The translated source gives the same module list for all registers, the same parameter addresses and register counts for all module lists, the same verdict on every configuration, the same type and category for every string and identifier, the same channel counts and error texts, and the same conversions between registers, bytes, bits and analog values as the model. The public register addresses are those of the register map of the coupler.", "quantifier": "all register lists, module lists, configurations, strings with any mapping of letters to upper case, identifiers, words, bytes, floating point values and bit numbers below 64", "why_tests_cant": "the functions are tables and conversions over large domains; one wrong row or boundary is found only by the test that hits it.", "anchors": ["src/ur20_fbc_mod_tcp.rs::module_list_from_registers", "src/ur20_fbc_mod_tcp.rs::param_addresses_and_register_counts", "src/ur20_fbc_mod_tcp.rs::CouplerConfig::validate", "src/lib.rs::ModuleType::try_from_u32", "src/lib.rs::ModuleType::from_str", "src/util.rs::shift_data", "src/util.rs::u16_to_analog_ui_value"]}
{"id": "C137", "title": "The main guarantees hold of the source text", "statement": "The Rust text itself, as translated, has the main properties an application relies on: a coupler is set up exactly if the registers of the station describe its modules; only cycles can panic, and exactly the ones of C77; after a successful cycle inputs() shows what the registers say; a loop that feeds the returned images back runs forever, and every output holds the value last set; what is read from a serial module is what arrived, each frame once and in order; and what is sent is what was given to it, each byte once and in order.", "quantifier": "all stations, configurations, histories of calls and cycles, images, iteration orders of hash maps, contents of read buffers and both overflow-check settings; for outputs and what is sent: modules whose output bytes no later module uses", "why_tests_cant": "the guarantees are about unbounded histories, and about the code as written, not about a description of it.", "anchors": ["src/ur20_fbc_mod_tcp.rs::Coupler::new", "src/ur20_fbc_mod_tcp.rs::Coupler::next", "src/ur20_fbc_mod_tcp.rs::Coupler::set_output", "src/ur20_fbc_mod_tcp.rs::Coupler::inputs", "src/ur20_fbc_mod_tcp.rs::module_list_from_registers", "src/ur20_fbc_mod_tcp.rs::param_addresses_and_register_counts", "src/ur20_1com_232_485_422.rs::MessageProcessor::next", "src/ur20_1com_232_485_422.rs::MessageProcessor::read", "src/ur20_1com_232_485_422.rs::MessageProcessor::write"]}
{"id": "C138", "title": "What every call of the source text returns", "statement": "After any history, what the next call of the Rust text, as translated, returns can be told from the configuration and the calls before. set_output accepts exactly the channels of the configured modules and returns Address otherwise. reader(n) and writer(n) exist exactly for serial modules; a write takes all bytes and a read never fails. A cycle succeeds exactly if the images are complete and the values written since the last decodable cycle can be encoded; otherwise it returns the error of the first module at fault. The image it returns has the value last written for every channel, and what the given image has if there is none. inputs() and outputs() then show what the given images stand for, also after a cycle that fails to encode; a cycle that cannot be decoded leaves outputs() as it was.", "quantifier": "all configurations, histories of calls and cycles, images (without overflow checks: output images of at most 63488 registers), iteration orders of hash maps, contents of read buffers and both overflow-check settings; values of modules that start at a register or have one byte, for the returned image modules whose output bytes no later module uses", "why_tests_cant": "a test calls the code after a few histories; this is about the code as written and every history of it.", "anchors": ["src/ur20_fbc_mod_tcp.rs::Coupler::next", "src/ur20_fbc_mod_tcp.rs::Coupler::set_output", "src/ur20_fbc_mod_tcp.rs::Coupler::inputs", "src/ur20_fbc_mod_tcp.rs::Coupler::outputs", "src/ur20_fbc_mod_tcp.rs::Coupler::reader", "src/ur20_fbc_mod_tcp.rs::Coupler::writer", "src/ur20_1com_232_485_422.rs::MessageProcessor::read", "src/ur20_1com_232_485_422.rs::MessageProcessor::write"]}
{"id": "C139", "title": "Serial devices behind a coupler of the source text", "statement": "The Rust text itself, as translated, serves any number of serial devices: under every interleaving of writes, reads, values set, other calls, cycles (succeeding or failing), transfers, losses, crashes and device steps, each device takes over only bytes written to its own module, once and in order, and exactly those if nothing is lost; what is read from a module comes from its own device, each segment once and in order, and since the last start of the application it is all the device has shown; and rounds of a cycle in which all devices look at the image deliver everything on all modules, as many as the longest queue needs.", "quantifier": "all configurations with any number of connected serial modules, schedules, images, values, iteration orders of hash maps, contents of read buffers and both overflow-check settings; serial modules whose output bytes no later module uses", "why_tests_cant": "The Rust text meets its devices under unboundedly many schedules and failures.", "anchors": ["src/ur20_fbc_mod_tcp.rs::Coupler::new", "src/ur20_fbc_mod_tcp.rs::Coupler::next", "src/ur20_fbc_mod_tcp.rs::Coupler::set_output", "src/ur20_fbc_mod_tcp.rs::Coupler::reader", "src/ur20_fbc_mod_tcp.rs::Coupler::writer", "src/ur20_1com_232_485_422.rs::MessageProcessor::next", "src/ur20_1com_232_485_422.rs::MessageProcessor::read", "src/ur20_1com_232_485_422.rs::MessageProcessor::write"]}
{"id": "C140", "title": "No program can tell the source text from the model", "statement": "A program that makes any number of couplers and message processors, calls them in any order and decides each next action by all the answers it has got so far gets from the Rust text, as translated, exactly the answers it gets from the model; hash map iteration orders and the contents of read buffers make no difference. Couplers and processors do not influence each other: what one of them answers is what it would answer if the program had no other.", "quantifier": "all adaptive programs of any length with any number of couplers and processors, all configurations, arguments, iteration orders of hash maps, contents of read buffers and both overflow-check settings", "why_tests_cant": "Programs adapt to what they are told; no finite set of scripts covers them.", "anchors": ["src/ur20_fbc_mod_tcp.rs::Coupler", "src/ur20_1com_232_485_422.rs::MessageProcessor"]}
{"id": "C141", "title": "Exactly which bytes are lost on the way to a serial device", "statement": "Whatever cycles return an error, whatever returned images never reach the device and wherever the application crashes and starts again, what was written to a serial module divides, in the order of writing, into what the device has taken over, what is in flight, what is still queued and a number of lost segments: the new segment of each lost image, the segment a failing cycle took from the queue, what was queued at a crash, and a segment the device had not taken over when the first images of the restarted application replaced it. Nothing else is lost. Each lost segment fits into one frame, and without crashes there are at most as many of them as lost images and failing cycles.", "quantifier": "all configurations, process data lengths, initial states and all interleavings of writes, reads, other calls, successful and failing cycles, transfers, losses, crashes and device steps; serial modules whose output bytes no later module uses", "why_tests_cant": "The place and content of a loss depends on the whole interleaving before it.", "anchors": ["src/ur20_fbc_mod_tcp.rs::Coupler::next", "src/ur20_1com_232_485_422.rs::MessageProcessor::next", "src/ur20_1com_232_485_422.rs::MessageProcessor::write"]}
{"id": "C142", "title": "Exactly which bytes are lost with any number of serial devices", "statement": "With any number of serial devices behind one coupler, whatever values are set on their modules, whatever cycles return an error, whatever returned images never reach the devices and wherever the application crashes and starts again: what was written to a serial module, or set on it and taken by a cycle, divides in this order into what its device has taken over, what is in flight, what is still queued and a number of lost segments: the new segment of each lost image, what a failing cycle took from the queue or from a value that was set, what was queued at a crash, and a segment the device had not taken over when the first images of the restarted application replaced it. Nothing else is lost, each lost segment fits into one frame, and without crashes there are at most as many of them as lost images and failing cycles. The same holds of the translated source, in whatever order it iterates over hash maps.", "quantifier": "all configurations, wirings, initial states of the devices, iteration orders and all interleavings of writes, reads, set values, other calls, successful and failing cycles, transfers, losses, crashes and device steps; serial modules whose output bytes no later module uses", "why_tests_cant": "The place and content of a loss depends on the whole interleaving before it.", "anchors": ["src/ur20_fbc_mod_tcp.rs::Coupler::next", "src/ur20_fbc_mod_tcp.rs::Coupler::set_output", "src/ur20_1com_232_485_422.rs::MessageProcessor::next", "src/ur20_1com_232_485_422.rs::MessageProcessor::write"]}
{"id": "C143", "title": "Exactly which bytes are lost if the station loses power", "statement": "With any number of serial devices behind a station that loses power any number of times between cycles and comes back with a cleared image and new segment numbers, whatever values are set, whatever cycles return an error, whatever images are lost and wherever the application crashes: what was written to a serial module, or set on it and taken by a cycle, divides in this order into what its device has taken over, what is in flight, what is still queued and a number of lost segments. Each power failure loses exactly the segment its device had not taken over; the other losses are those of C142. Each lost segment fits into one frame, and without crashes there are at most as many of them as lost images, failing cycles and power failures.", "quantifier": "all configurations, wirings, initial states of the devices, segment numbers after power failures and all interleavings of the steps of C142 with power failures between cycles; serial modules whose output bytes no later module uses", "why_tests_cant": "The place and content of a loss depends on the whole interleaving before it.", "anchors": ["src/ur20_fbc_mod_tcp.rs::Coupler::next", "src/ur20_1com_232_485_422.rs::MessageProcessor::next", "src/ur20_1com_232_485_422.rs::MessageProcessor::write"]}
{"id": "C144", "title": "Exactly which received bytes are lost in crashes", "statement": "With any number of serial devices behind one coupler, whatever cycles return an error, whatever images are lost and wherever the application crashes and starts again: what a device has shown to its initialised module, each presentation counted once per start of the application, divides in this order into what the application has read, what is in the receive buffer, and the contents the receive buffer had at each crash. Nothing else is lost and nothing is read twice or out of order. The same holds of the translated source, in whatever order it iterates over hash maps.", "quantifier": "all configurations, wirings, initial states of the devices, iteration orders and all interleavings of writes, reads, set values, other calls, successful and failing cycles, transfers, losses, crashes and device steps; serial modules whose output bytes no later module uses", "why_tests_cant": "What is lost depends on how the reads, the cycles and the crashes before it are interleaved.", "anchors": ["src/ur20_fbc_mod_tcp.rs::Coupler::next", "src/ur20_fbc_mod_tcp.rs::Coupler::reader", "src/ur20_1com_232_485_422.rs::MessageProcessor::next", "src/ur20_1com_232_485_422.rs::MessageProcessor::read"]}
{"id": "C145", "title": "Power failures of a station behind the translated source", "statement": "The translated source gives the guarantees of C124 and C143 in whatever order it iterates over hash maps: if the station loses power between two cycles while the application goes on with its coupler, then whatever cycles return an error, whatever images are lost and wherever the application crashes, the bytes written to a serial module, or set on it and taken by a cycle, divide in this order into what the device has taken over, what is in flight, what is queued, and exactly the segments the schedule loses, a power failure losing only the one the device has not taken over; cycles deliver what is left; what is read from a module was shown by its own device, at most once and in order, and is everything shown if the numbers after a power failure are new and the application does not crash.", "quantifier": "all configurations, serial modules whose output bytes no later module uses, wirings, initial states of the devices, iteration orders and all histories of calls, cycles, failing cycles, lost images, crashes, device steps and power failures", "why_tests_cant": "What is lost depends on how the power failures and the exchanges with the devices are interleaved, and the order of iteration over a hash map is not fixed.", "anchors": ["src/ur20_fbc_mod_tcp.rs::Coupler::next", "src/ur20_fbc_mod_tcp.rs::Coupler::writer", "src/ur20_1com_232_485_422.rs::MessageProcessor::next", "src/ur20_1com_232_485_422.rs::MessageProcessor::write"]}
{"id": "C146", "title": "Exactly which received segments are lost when the station loses power", "statement": "With any number of serial devices behind one coupler, as long as the application does not crash, whenever the station loses power and comes back, even in the middle of a cycle, whatever cycles return an error and whatever images are lost: what a device has shown to its initialised module divides in this order into what the application has read, what is in the receive buffer, and exactly the segments that, when first shown, had the number of the last segment shown before them. There are never more of these than power failures. After a crash the same holds from the restart on, and it holds of the translated source, in whatever order it iterates over hash maps.", "quantifier": "all configurations, serial modules whose output bytes no later module uses, wirings, initial states of the devices, iteration orders, all histories of calls, cycles, failing cycles, lost images, device steps and power failures at any time, and all numbers the devices start with", "why_tests_cant": "Which segments are lost depends on the numbers the devices start with and on how the power failures and the cycles are interleaved.", "anchors": ["src/ur20_fbc_mod_tcp.rs::Coupler::next", "src/ur20_fbc_mod_tcp.rs::Coupler::reader", "src/ur20_1com_232_485_422.rs::MessageProcessor::next", "src/ur20_1com_232_485_422.rs::MessageProcessor::read"]}
{"id": "C147", "title": "After a power failure a segment is repeated at most once, and nothing is reordered", "statement": "With any number of serial devices behind one coupler, wherever the station loses power and comes back, even in the middle of a cycle, whatever cycles return an error, whatever images are lost and wherever the application crashes: what a device takes over are segments of what the application sent to it, in the order in which it was sent. A segment is taken over a second time only directly after itself, there are not more such repetitions than power failures in the middle of a cycle, and each of them has at most as many bytes as fit into a frame. What is in the queue was sent after all that, and once cycles succeed again everything in flight and in the queue is taken over, in as many cycles as there are segments and one more. The same holds of the translated source, in whatever order it iterates over hash maps.", "quantifier": "all configurations, serial modules whose output bytes no later module uses, wirings, initial states of the devices, iteration orders, all histories of calls, cycles, failing cycles, lost images, crashes, device steps and power failures at any time, and all numbers the devices start with", "why_tests_cant": "Whether a segment is repeated depends on the moment the power fails and on the numbers the devices start with.", "anchors": ["src/ur20_fbc_mod_tcp.rs::Coupler::next", "src/ur20_fbc_mod_tcp.rs::Coupler::writer", "src/ur20_1com_232_485_422.rs::MessageProcessor::next", "src/ur20_1com_232_485_422.rs::MessageProcessor::write"]}
{"id": "C148", "title": "Any number of serial devices at once, with late and lost images and restarts", "statement": "A station with any number of serial modules that are connected to devices, and any other modules; the process images, which carry the data of all of them, are on the way for any time in both directions and may get lost, the application uses the last returned image for the next cycle, and it may be restarted. Within each run the bytes each device takes over, followed by those of the last returned image it has not taken over yet and those still queued, are exactly the bytes written to its own module in this run, possibly after the segment that was waiting for it at the start. What is read from a module are the segments of its own device, each exactly once and in order, from the end of the initialisation on. When the images arrive again everything written reaches all devices at the same time within as many rounds as the longest queue needs, all cycles of these rounds succeed, and one round is enough to have received what the devices have presented. Over all restarts no byte is taken over twice, out of order or by another device.", "quantifier": "all configurations and wirings, numbers and states of the devices, images at the start, schedules of calls, cycles, deliveries, losses and looks of each device in each run, restart points and modules, for modules whose output bytes no later module uses", "why_tests_cant": "All devices share the images, so the delay or loss of one image hits each of them in a different state of its own protocol.", "anchors": ["src/ur20_fbc_mod_tcp.rs::Coupler::next", "src/ur20_fbc_mod_tcp.rs::Coupler::writer", "src/ur20_fbc_mod_tcp.rs::Coupler::reader", "src/ur20_1com_232_485_422.rs::MessageProcessor::next"]}
{"id": "C149", "title": "Late and lost images, any number of devices and restarts: the source itself", "statement": "The guarantees of C148 hold of the translated source text, in whatever order it iterates over hash maps in each call and whatever the buffers passed to it contain: each device takes over exactly what was written to its own module, possibly after the segment that was waiting at the start; what is read are the segments of the own device, once and in order; when the images arrive again everything reaches all devices, all cycles succeed and everything presented is received; and over restarts nothing is taken over twice or out of order.", "quantifier": "all configurations and wirings, devices, images at the start, schedules with delays and losses, restart points, iteration orders of every call and contents of the buffers, for modules whose output bytes no later module uses", "why_tests_cant": "The iteration order of a hash map is random in each run and cannot be chosen by a test.", "anchors": ["src/ur20_fbc_mod_tcp.rs::Coupler::next", "src/ur20_fbc_mod_tcp.rs::Coupler::new", "src/ur20_1com_232_485_422.rs::MessageProcessor::next", "src/ur20_1com_232_485_422.rs::MessageProcessor::write"]}
{"id": "C150", "title": "Output values next to serial devices, with late and lost images and restarts", "statement": "A station with serial modules that are connected to devices and with any other modules; the process images, which carry the data of all of them, are on the way for any time and may get lost, and the application may be restarted at any time, with a new coupler and the images of the device. At any time the device has on, for every output channel that is not serial, the value of the last set_output made before the cycle its image comes from (analog values up to the drift of C107), or what was on at the start if there was none, where a restart counts as losing the calls that have not arrived. That cycle never moves back, so no channel returns to an older value. When nothing is on the way any more then one round brings the values of all calls to the device, and its cycle succeeds. The translated source does the same in every order of iteration.", "quantifier": "all configurations and wirings with at least one connected serial device, images at the start, schedules of set_output, write and read calls (set_output also on the serial channels), polls, cycles, delays, losses and restarts, and all iteration orders of the translated source; for output modules whose bytes no later module uses and whose data starts at a register or is one byte", "why_tests_cant": "The interplay of serial segments, delays, losses and restarts has no bounded number of cases.", "anchors": ["src/ur20_fbc_mod_tcp.rs::Coupler::next", "src/ur20_fbc_mod_tcp.rs::Coupler::new", "src/ur20_fbc_mod_tcp.rs::Coupler::set_output", "src/ur20_fbc_mod_tcp.rs::Coupler::writer", "src/ur20_1com_232_485_422.rs::MessageProcessor::next"]}
{"id": "C151", "title": "Sending with set_output to any number of serial devices, with late and lost images and restarts", "statement": "In the system of C148 the application may also send by calling set_output with bytes on the channel of a serial module, in any mixture with its writers. The bytes set on a module count as given to its writer when the next cycle succeeds, after everything given to the writer before; until then another set_output on the module replaces them, and a restart drops them. Values of other kinds send nothing. Within each run the bytes each device takes over, followed by those of the last returned image it has not taken over yet and those still queued, are exactly the bytes written to or set on its own module in this run, possibly after the segment that was waiting for it at the start; what is read is not disturbed. When the images arrive again everything, also the bytes no cycle has taken yet, reaches all devices at the same time, within three rounds more than the longest queue has segments, and all cycles of these rounds succeed. Over any number of restarts each device takes over the bytes at most once and in order. The theorems are stated and proved a second time of the translated source.", "quantifier": "all configurations with any number of connected serial modules whose output bytes no later module uses, all initial states of the devices and images, all schedules of writing, setting, reading, other calls, cycles, failing cycles, transmissions, losses, devices taking over and presenting segments, and restarts; both overflow modes", "why_tests_cant": "set_output and the writer use two different queues of the coupler, and the first is only emptied by a cycle; whether the order is kept depends on how calls, cycles, losses and several devices interleave", "anchors": ["src/ur20_fbc_mod_tcp.rs::Coupler::next", "src/ur20_fbc_mod_tcp.rs::Coupler::set_output", "src/ur20_1com_232_485_422.rs::MessageProcessor::write", "src/ur20_1com_232_485_422.rs::MessageProcessor::next"]}
{"id": "C152", "title": "Exactly which bytes failing cycles lose, with late and lost images", "statement": "With images that are late or lost in both directions (C129, C148) and cycles that fail for any reason, also because of the values of other modules: what is written to a serial module divides into pieces in the order of writing. The pieces the device takes over, the one in flight and those still queued are in order and complete; the missing ones are exactly the first segments of the queue at those failing cycles that come after the two of the initialisation, whose images can be decoded and whose image of the inputs shows that the device has taken over the last segment sent. A failing cycle loses at most one segment of each module, and each fits into one frame; cycles with images that cannot be decoded lose nothing, whatever the images are. In the other direction failing cycles lose and double nothing: after the initialisation every segment of the device is received once and in order. When cycles succeed and images arrive again, everything that is not lost reaches the devices within three rounds more than the queue has segments.", "quantifier": "all configurations with any number of connected serial modules whose output bytes no later module uses, all initial states of the devices, all schedules of writing, reading, other calls, successful and failing cycles, transmissions, losses, and devices taking over and presenting segments; both overflow modes", "why_tests_cant": "a failing cycle has already stepped the queues of all serial modules when the error of another module is found; what is lost depends on which acknowledgements were in the late image the application used, and on how often it failed before", "anchors": ["src/ur20_fbc_mod_tcp.rs::Coupler::next", "src/ur20_1com_232_485_422.rs::MessageProcessor::next", "src/ur20_1com_232_485_422.rs::MessageProcessor::write", "src/ur20_1com_232_485_422.rs::MessageProcessor::read"]}
{"id": "C153", "title": "Exactly which bytes failing cycles lose, with the code as it is written", "statement": "The guarantees of C152 for any number of serial devices, stated of the functions of the Rust source as they are written (translated line by line, hash maps with any order of iteration, buffers with any content): what is written to a serial module reaches its device completely, once and in order, except for the first segment of the queue at each failing cycle that comes after the initialisation, whose images can be decoded and whose image of the inputs shows that the last segment was taken over. Nothing of what the devices send is lost or doubled by failing cycles, and when cycles succeed and images arrive again, everything that is not lost reaches the devices.", "quantifier": "all configurations with any number of connected serial modules whose output bytes no later module uses, all initial states of the devices, all orders of iteration over hash maps, all buffers, all schedules of C152; both overflow modes", "why_tests_cant": "the orders of iteration of the hash maps are random, and a failing cycle stops in the middle of the modules", "anchors": ["src/ur20_fbc_mod_tcp.rs::Coupler::next", "src/ur20_1com_232_485_422.rs::MessageProcessor::next", "src/ur20_1com_232_485_422.rs::MessageProcessor::write", "src/ur20_1com_232_485_422.rs::MessageProcessor::read"]}
{"id": "C154", "title": "Failing cycles and restarts of the application together", "statement": "The guarantees of C152 and C153 hold also for an application that is started (or restarted) while the devices are in the middle of their work: whatever counters the device has and whatever frame of an earlier run it still has to take over, what this run writes reaches the device once and in order, except for exactly the segments that failing cycles lose (at most one per failing cycle, the first of the queue); before it the device takes over the left-over frame of the earlier run completely or not at all. Nothing the device sends after the initialisation is lost or doubled. Over any number of runs with failing cycles and a restart after each of them, what the device takes over is a subsequence of what was waiting at first followed by what all runs have written: nothing is doubled, reordered or invented. For a message processor, for a coupler with one device, for a coupler with any number of devices and for the translated source.", "quantifier": "all configurations with serial modules, all states of the devices and of the images at the start of the application, all schedules of writes, reads, cycles, failing cycles, samples, arrivals and losses of images, all numbers of runs and points of the restarts", "why_tests_cant": "the interplay of failing cycles, late images and restarts is unbounded; unit tests drive single cycles of fresh objects", "anchors": ["src/ur20_fbc_mod_tcp.rs::Coupler::next", "src/ur20_fbc_mod_tcp.rs::Coupler::new", "src/ur20_1com_232_485_422.rs::MessageProcessor::next", "src/ur20_1com_232_485_422.rs::MessageProcessor::new", "src/ur20_1com_232_485_422.rs::MessageProcessor::write", "src/ur20_1com_232_485_422.rs::MessageProcessor::read"]}
{"id": "C155", "title": "Failing cycles take the bytes set on serial channels, and lose exactly their first segment", "statement": "Bytes may be sent with the writer and with set_output on the channels of the serial modules, while images are late or lost, cycles fail and the application is restarted. A cycle that fails although its images can be decoded takes the bytes that are set just as one that succeeds: they join the queue after everything written before, and no later cycle takes them again. What each device takes over of what was written to its module or set on it and taken by a cycle are, in order, all bytes except exactly one segment for each failing cycle that comes after the initialisation and whose image of the inputs shows that the last segment was taken over: the first one of the queue, or, if the queue is empty, the first bytes that are set, as many as fit into a frame. Before them the device may take over the frame left over by an earlier run. What is received is not disturbed. When cycles succeed and images arrive again, everything that is not lost reaches the devices, also bytes that are still set. Over any number of restarts nothing is doubled, reordered or invented.", "quantifier": "all configurations with any number of connected serial modules whose output bytes no later module uses, all states of the devices and images at the start, all schedules of set_output, write, read, cycles, failing cycles, samples, arrivals and losses of images and restarts; both overflow modes; for the translated source all orders of iteration and all buffers", "why_tests_cant": "which segment a failing cycle loses depends on the whole history of the queue, of the values set and of the counters; unit tests run single successful cycles", "anchors": ["src/ur20_fbc_mod_tcp.rs::Coupler::next", "src/ur20_fbc_mod_tcp.rs::Coupler::set_output", "src/ur20_fbc_mod_tcp.rs::Coupler::writer", "src/ur20_1com_232_485_422.rs::MessageProcessor::next", "src/ur20_1com_232_485_422.rs::MessageProcessor::write"]}
{"id": "C156", "title": "The values of all outputs while cycles fail and images are late or lost", "statement": "Values may be set with set_output while images are late or lost, the application is restarted and cycles fail, also cycles whose images can be decoded but one of whose values cannot be encoded. Such a cycle has taken the values set since the last successful cycle, and they are discarded: no later image carries them unless they are set again. A cycle whose images cannot be decoded discards nothing. At any time the station has for every output channel of a module that is not serial the value of the last set_output among the calls made before the cycle its image comes from, without the discarded calls; if there is none it has what was there at the start. Registers of analog outputs are within 2 or 5 steps, depending on the range, of the encoded value, however many cycles there were. The station never goes back to older values, and when nothing is on the way any more one round whose cycle succeeds brings the values of all calls that are not discarded to the station.", "quantifier": "all configurations with any modules whose output bytes no later module uses, all images at the start, all schedules of set_output, write, read, cycles, failing cycles, samples, arrivals and losses of images and restarts; both overflow modes; for the translated source all orders of iteration and all buffers", "why_tests_cant": "which values an image carries depends on the whole history of the calls, the failures and the losses; unit tests run single successful cycles", "anchors": ["src/ur20_fbc_mod_tcp.rs::Coupler::next", "src/ur20_fbc_mod_tcp.rs::Coupler::set_output", "src/ur20_fbc_mod_tcp.rs::Coupler::new"]}
{"id": "C157", "title": "What the application sees while cycles fail and images are late or lost", "statement": "Images are late or lost, the application is restarted and cycles fail. At any time inputs() shows, for every channel of every module that is not serial, what the last image of the inputs stands for that a cycle since the last restart could decode, also if that cycle failed because of its image of the outputs or of a value it could not encode; outputs() shows what the last image of the outputs stands for that was decoded together with its image of the inputs. Before the first such cycle both are empty. A successful cycle shows the image of the inputs the application has, and the image of the outputs of the previous successful cycle. The image of the inputs the application has is one the station has sent or the application has read at a start, and it never goes back to an older one. Nothing else is ever shown, except images that were given to failing cycles. When no image of the inputs is on the way any more, one round whose cycle succeeds shows the current inputs.", "quantifier": "all configurations and modules at register boundaries or of one byte, all images, all schedules of set_output, write, read, cycles, failing cycles, samples, arrivals and losses of images and restarts, with at least one serial device; both overflow modes; for the translated source all orders of iteration and all buffers", "why_tests_cant": "what is shown depends on the whole history of failures, losses and restarts; unit tests look at single cycles", "anchors": ["src/ur20_fbc_mod_tcp.rs::Coupler::inputs", "src/ur20_fbc_mod_tcp.rs::Coupler::outputs", "src/ur20_fbc_mod_tcp.rs::Coupler::next", "src/ur20_fbc_mod_tcp.rs::Coupler::new"]}
{"id": "C158", "title": "outputs() reads back what was set, while cycles fail and images are late or lost", "statement": "Images are late or lost, the application is restarted and cycles fail. After a successful cycle outputs() shows for every channel of a digital output or relay module the bit of the last set_output that was made on it before the cycle that gave the image of the outputs the application keeps (before the restart: the cycle whose image the station had) and that was not discarded by a failing cycle; without such a call it shows the bit of the image at the start. So what was set since then is shown one successful cycle later. For a counter it shows the command and the time, rounded down to microseconds. For an enabled analog output set to a value in range it shows a number within 17/16 + 1/128 steps of one register, plus the 2 or 5 steps of C107, of the value set.", "quantifier": "all configurations whose output bytes are not used by later modules, all modules at register boundaries or of one byte, all values, all images at the start, all schedules of set_output, write, read, cycles, failing cycles, samples, arrivals and losses of images and restarts, with at least one serial device; both overflow modes; for the translated source all orders of iteration and all buffers", "why_tests_cant": "the value shown depends on the whole history of calls, failures, losses and restarts, and an analog register is read and written again in every cycle", "anchors": ["src/ur20_fbc_mod_tcp.rs::Coupler::outputs", "src/ur20_fbc_mod_tcp.rs::Coupler::set_output", "src/ur20_fbc_mod_tcp.rs::Coupler::next"]}
{"id": "C159", "title": "An output wired to an input, with late and lost images, failing cycles and restarts of both applications", "statement": "C132 without its restrictions: cycles of both applications may fail for any reason, and both may be restarted. At any time at which the second application has used an image of the inputs since its restart, inputs() shows the value of the last set_output among some first part of the calls of the first application that count (a bit exactly, a number up to the error of the wiring, the resolution of the two channels and the drift of C107), or what was on at the start if there is none among them; the calls that count are those not discarded by a failing cycle whose images could be decoded. A failing cycle of the second application shows its image of the inputs if that can be decoded, and otherwise leaves what is shown. No older value comes back, not even after a restart. If a cycle of the first application succeeds, the images in between arrive and a cycle of the second application succeeds or at least can decode its image of the inputs, then inputs() shows the effect of all calls that count.", "quantifier": "all configurations of the two stations, channels, ranges, formats, schedules of calls, cycles, failing cycles, deliveries, losses and restarts of both applications; outputs whose bytes no later module uses and whose data starts at a register or has one byte (see C45); both overflow modes", "why_tests_cant": "delays, losses, failures and restarts on two connections can be combined in unboundedly many ways with the calls and cycles of two applications", "anchors": ["src/ur20_fbc_mod_tcp.rs::Coupler::next", "src/ur20_fbc_mod_tcp.rs::Coupler::set_output", "src/ur20_fbc_mod_tcp.rs::Coupler::inputs", "src/ur20_fbc_mod_tcp.rs::Coupler::new"]}
