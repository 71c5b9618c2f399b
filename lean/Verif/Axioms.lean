import Verif.Props.Account
import Verif.Props.Addressing
import Verif.Props.Alone
import Verif.Props.Analog
import Verif.Props.AnalogCount
import Verif.Props.AnalogCoupler
import Verif.Props.AnalogHeld
import Verif.Props.Builds
import Verif.Props.Cable
import Verif.Props.CableProgress
import Verif.Props.CableRestart
import Verif.Props.Channels
import Verif.Props.Conversions
import Verif.Props.Counter
import Verif.Props.Coupler
import Verif.Props.Digital
import Verif.Props.Dropped
import Verif.Props.Edited
import Verif.Props.Extension
import Verif.Props.Failure
import Verif.Props.Faults
import Verif.Props.FloatBits
import Verif.Props.Frequency
import Verif.Props.Held
import Verif.Props.Hertz
import Verif.Props.HighByte
import Verif.Props.Histories
import Verif.Props.Image
import Verif.Props.Imperative
import Verif.Props.Interleaving
import Verif.Props.Isolation
import Verif.Props.Late
import Verif.Props.LateCable
import Verif.Props.LateDrop
import Verif.Props.LateDropSource
import Verif.Props.LateFail
import Verif.Props.LateFailNet
import Verif.Props.LateFailRestart
import Verif.Props.LateFailRestartSource
import Verif.Props.LateFailSource
import Verif.Props.LateNet
import Verif.Props.LateOutputs
import Verif.Props.LatePlant
import Verif.Props.LateReadBack
import Verif.Props.LateReadBackSource
import Verif.Props.LateRestart
import Verif.Props.LateSend
import Verif.Props.LateSendFail
import Verif.Props.LateSendFailSource
import Verif.Props.LateSendSource
import Verif.Props.LateShown
import Verif.Props.LateShownSource
import Verif.Props.LateSource
import Verif.Props.LateStation
import Verif.Props.LateStationSource
import Verif.Props.LateWire
import Verif.Props.LateWireDrop
import Verif.Props.LateWireSource
import Verif.Props.Loop
import Verif.Props.Lost
import Verif.Props.LostNet
import Verif.Props.LostPower
import Verif.Props.LostSource
import Verif.Props.Memory
import Verif.Props.Modules
import Verif.Props.Names
import Verif.Props.Network
import Verif.Props.Noninterference
import Verif.Props.Outage
import Verif.Props.Overlaid
import Verif.Props.Packing
import Verif.Props.Params
import Verif.Props.Pending
import Verif.Props.Power
import Verif.Props.PowerNet
import Verif.Props.Processor
import Verif.Props.Programs
import Verif.Props.Protocol
import Verif.Props.Receiving
import Verif.Props.Repeats
import Verif.Props.RepeatsSource
import Verif.Props.Restarts
import Verif.Props.Runs
import Verif.Props.Sending
import Verif.Props.Serial
import Verif.Props.SerialCoupler
import Verif.Props.Settable
import Verif.Props.Settings
import Verif.Props.Settle
import Verif.Props.Setup
import Verif.Props.Shown
import Verif.Props.Skipped
import Verif.Props.SkippedSource
import Verif.Props.Source
import Verif.Props.SourceCalls
import Verif.Props.SourceModules
import Verif.Props.SourceNet
import Verif.Props.SourcePower
import Verif.Props.SourceRuns
import Verif.Props.SourceTables
import Verif.Props.Station
import Verif.Props.StdIo
import Verif.Props.Success
import Verif.Props.Surplus
import Verif.Props.Thermal
import Verif.Props.Throughput
import Verif.Props.Transfers
import Verif.Props.Unreliable
import Verif.Props.Visible
import Verif.Props.Wiring
import Verif.Props.WriteBack
import Verif.Props.Writes

/-!
# Axioms used by the property theorems
-/

#print axioms Ur20.C01_split_merge
#print axioms Ur20.C01_merge_split
#print axioms Ur20.C02_offsets
#print axioms Ur20.C03_module_list
#print axioms Ur20.C04_injective
#print axioms Ur20.C04_surjective
#print axioms Ur20.C04_ids
#print axioms Ur20.C04_unknown
#print axioms Ur20.C05_parse_iff
#print axioms Ur20.C05_parse_error
#print axioms Ur20.C05_spelling
#print axioms Ur20.C06_category_partial
#print axioms Ur20.C06_category_error
#print axioms Ur20.C06_spelling_partial
#print axioms Ur20.C06_statement_false
#print axioms Ur20.C07_input_partial
#print axioms Ur20.C07_output
#print axioms Ur20.C07_statement_false
#print axioms Ur20.C08_windows
#print axioms Ur20.C08_outcome
#print axioms Ur20.C08_counts
#print axioms Ur20.C09_register_count
#print axioms Ur20.C09_supported
#print axioms Ur20.C10_accepted
#print axioms Ur20.C11_fields
#print axioms Ur20.C11_codes_injective
#print axioms Ur20.C12_surplus_partial
#print axioms Ur20.C12_statement_false
#print axioms Ur20.C12_parameterless_reject
#print axioms Ur20.C12_thermocouple_never
#print axioms Ur20.C12_thermocouple_outcome
#print axioms Ur20.C13_lengths
#print axioms Ur20.C13_first_error
#print axioms Ur20.C13_success
#print axioms Ur20.C14_readers
#print axioms Ur20.C15_digital_input
#print axioms Ur20.C16_accepts
#print axioms Ur20.C16_bits
#print axioms Ur20.C17_decode_encode
#print axioms Ur20.C17_encode_decode
#print axioms Ur20.C18_safety
#print axioms Ur20.C19_round_trip
#print axioms Ur20.C19_layout
#print axioms Ur20.C20_errors
#print axioms Ur20.C21_input
#print axioms Ur20.C21_output
#print axioms Ur20.C21_counters
#print axioms Ur20.C22_registers
#print axioms Ur20.C23_handshake
#print axioms Ur20.C24_stop_and_wait
#print axioms Ur20.C25_exactly_once
#print axioms Ur20.C25_prefix
#print axioms Ur20.C25_written
#print axioms Ur20.C26_rounds
#print axioms Ur20.C26_everything_delivered
#print axioms Ur20.C27_segments
#print axioms Ur20.C27_write
#print axioms Ur20.C27_encodable
#print axioms Ur20.C99_accepted
#print axioms Ur20.C28_exactly_once
#print axioms Ur20.C29_acknowledge
#print axioms Ur20.C30_read
#print axioms Ur20.C30_reads
#print axioms Ur20.C98_received
#print axioms Ur20.C31_addresses
#print axioms Ur20.C32_last_wins
#print axioms Ur20.C32_commute
#print axioms Ur20.C33_writes_reach_image
#print axioms Ur20.C33_set_output
#print axioms Ur20.C34_consumed
#print axioms Ur20.C34_only_images
#print axioms Ur20.C34_applied_once
#print axioms Ur20.C35_idle_digital
#print axioms Ur20.C36_idle_analog_partial
#print axioms Ur20.C36_count_partial
#print axioms Ur20.C36_statement_false
#print axioms Ur20.C37_no_partial_effect
#print axioms Ur20.C38_partial
#print axioms Ur20.C38_statement_false
#print axioms Ur20.C38_segment_lost
#print axioms Ur20.C39_partial
#print axioms Ur20.C39_statement_false
#print axioms Ur20.C40_inputs
#print axioms Ur20.C40_latest_only
#print axioms Ur20.C41_layout
#print axioms Ur20.C41_no_gaps
#print axioms Ur20.C41_misplaced
#print axioms Ur20.C41_length
#print axioms Ur20.C41_own_bytes
#print axioms Ur20.C42_independent
#print axioms Ur20.C43_no_panic_partial
#print axioms Ur20.C43_statement_false
#print axioms Ur20.C44_decode_input
#print axioms Ur20.C44_decode_output
#print axioms Ur20.C44_encode
#print axioms Ur20.C45_decode_partial
#print axioms Ur20.C45_encode_partial
#print axioms Ur20.C45_inputs_partial
#print axioms Ur20.C45_outputs_partial
#print axioms Ur20.C45_returned_partial
#print axioms Ur20.C45_decode_statement_false
#print axioms Ur20.C45_encode_statement_false
#print axioms Ur20.C45_inputs_statement_false
#print axioms Ur20.C45_outputs_statement_false
#print axioms Ur20.C45_returned_statement_false
#print axioms Ur20.C46_decode
#print axioms Ur20.C47_round_trip
#print axioms Ur20.C48_cycle_partial
#print axioms Ur20.C48_statement_false
#print axioms Ur20.C49_none
#print axioms Ur20.C49_accuracy
#print axioms Ur20.C49_zero
#print axioms Ur20.C50_inputs
#print axioms Ur20.C50_outputs
#print axioms Ur20.C51_inputs
#print axioms Ur20.C51_outputs
#print axioms Ur20.C52_encode
#print axioms Ur20.C52_monotone
#print axioms Ur20.C53_s5_exact
#print axioms Ur20.C54_step_partial
#print axioms Ur20.C54_multiples_partial
#print axioms Ur20.C54_count_partial
#print axioms Ur20.C54_statement_false
#print axioms Ur20.C55_drift
#print axioms Ur20.C55_cycles
#print axioms Ur20.C56_rtd
#print axioms Ur20.C57_thermocouple
#print axioms Ur20.C58_outputs_partial
#print axioms Ur20.C58_statement_false
#print axioms Ur20.C59_inputs
#print axioms Ur20.C60_set_output_bytes
#print axioms Ur20.C61_input_only
#print axioms Ur20.C61_set_output
#print axioms Ur20.C62_transmit
#print axioms Ur20.C62_receive
#print axioms Ur20.C63_own_calls
#print axioms Ur20.C63_independent
#print axioms Ur20.C64_substitute
#print axioms Ur20.C64_substitute_diag
#print axioms Ur20.C65_module_type_partial
#print axioms Ur20.C65_statement_false
#print axioms Ur20.C66_accepts
#print axioms Ur20.C66_pending
#print axioms Ur20.C66_pending_anywhere
#print axioms Ur20.C67_analog_write
#print axioms Ur20.C68_success
#print axioms Ur20.C69_needed
#print axioms Ur20.C69_success_iff
#print axioms Ur20.C70_inputs
#print axioms Ur20.C71_outputs
#print axioms Ur20.C72_image
#print axioms Ur20.C72_overwritten
#print axioms Ur20.C73_read_back
#print axioms Ur20.C74_inputs
#print axioms Ur20.C74_outputs
#print axioms Ur20.C75_outputs
#print axioms Ur20.C75_no_outputs
#print axioms Ur20.C75_serial
#print axioms Ur20.C76_default
#print axioms Ur20.C76_exists
#print axioms Ur20.C76_inputs_disabled
#print axioms Ur20.C76_outputs_disabled
#print axioms Ur20.C77_panics
#print axioms Ur20.C78_undecodable
#print axioms Ur20.C78_no_trace
#print axioms Ur20.C78_consumed
#print axioms Ur20.C79_decoded_only
#print axioms Ur20.C79_serial
#print axioms Ur20.C80_outputs
#print axioms Ur20.C80_inputs
#print axioms Ur20.C81_inputs
#print axioms Ur20.C81_outputs
#print axioms Ur20.C82_error
#print axioms Ur20.C82_kinds
#print axioms Ur20.C83_order_partial
#print axioms Ur20.C83_harmless_partial
#print axioms Ur20.C83_receive_partial
#print axioms Ur20.C83_recovers_partial
#print axioms Ur20.C83_statement_false
#print axioms Ur20.C84_crash
#print axioms Ur20.C84_after_crash
#print axioms Ur20.C85_closed_loop
#print axioms Ur20.C85_zeros
#print axioms Ur20.C86_holds_last
#print axioms Ur20.C86_analog
#print axioms Ur20.C86_rests
#print axioms Ur20.C87_display
#print axioms Ur20.C87_io
#print axioms Ur20.C87_description
#print axioms Ur20.C88_read_to_end
#print axioms Ur20.C88_read_to_end_ends
#print axioms Ur20.C88_read_exact
#print axioms Ur20.C88_write_all
#print axioms Ur20.C88_plain
#print axioms Ur20.C89_order_partial
#print axioms Ur20.C89_undecodable_partial
#print axioms Ur20.C89_receive_partial
#print axioms Ur20.C89_statement_false
#print axioms Ur20.C90_recovers
#print axioms Ur20.C90_after_crash
#print axioms Ur20.C91_acknowledged
#print axioms Ur20.C91_received
#print axioms Ur20.C92_order
#print axioms Ur20.C92_exactly_once
#print axioms Ur20.C92_receive
#print axioms Ur20.C92_delivered
#print axioms Ur20.C93_order
#print axioms Ur20.C93_since_restart
#print axioms Ur20.C94_encode
#print axioms Ur20.C94_equal
#print axioms Ur20.C94_decode
#print axioms Ur20.C94_proper
#print axioms Ur20.C94_hertz
#print axioms Ur20.C94_patterns
#print axioms Ur20.C95_order
#print axioms Ur20.C95_exactly_once
#print axioms Ur20.C95_receive_order
#print axioms Ur20.C95_receive
#print axioms Ur20.C95_since_restart
#print axioms Ur20.C95_delivered
#print axioms Ur20.C96_codes
#print axioms Ur20.C96_configures
#print axioms Ur20.C96_range
#print axioms Ur20.C97_refines
#print axioms Ur20.C97_deterministic
#print axioms Ur20.C97_index_loops
#print axioms Ur20.C98_sent
#print axioms Ur20.C98_repeated
#print axioms Ur20.C98_cycle
#print axioms Ur20.C98_panics
#print axioms Ur20.C98_read
#print axioms Ur20.C98_write
#print axioms Ur20.C99_received
#print axioms Ur20.C99_sent
#print axioms Ur20.C99_sent_once
#print axioms Ur20.C100_interleaving
#print axioms Ur20.C101_noninterference
#print axioms Ur20.C102_pending
#print axioms Ur20.C102_received
#print axioms Ur20.C102_prompt
#print axioms Ur20.C103_setup
#print axioms Ur20.C103_rejected
#print axioms Ur20.C104_panics_partial
#print axioms Ur20.C104_wrong_number
#print axioms Ur20.C104_settings
#print axioms Ur20.C104_statement_false
#print axioms Ur20.C105_module
#print axioms Ur20.C105_settings
#print axioms Ur20.C106_channels
#print axioms Ur20.C106_category
#print axioms Ur20.C107_settles
#print axioms Ur20.C107_cycles
#print axioms Ur20.C107_s5
#print axioms Ur20.C108_elsewhere
#print axioms Ur20.C108_alone
#print axioms Ur20.C109_never
#print axioms Ur20.C109_runs
#print axioms Ur20.C109_last
#print axioms Ur20.C110_success
#print axioms Ur20.C110_error
#print axioms Ur20.C110_image
#print axioms Ur20.C110_memory
#print axioms Ur20.C111_returned_partial
#print axioms Ur20.C111_returned_analog_partial
#print axioms Ur20.C111_read_back_partial
#print axioms Ur20.C111_read_back_analog_partial
#print axioms Ur20.C111_statement_false
#print axioms Ur20.C112_restarts
#print axioms Ur20.C112_analog
#print axioms Ur20.C113_written
#print axioms Ur20.C113_counter
#print axioms Ur20.C113_safety
#print axioms Ur20.C114_digital
#print axioms Ur20.C114_analog
#print axioms Ur20.C115_order
#print axioms Ur20.C115_exactly_once
#print axioms Ur20.C115_arrives
#print axioms Ur20.C115_both
#print axioms Ur20.C115_since_restart
#print axioms Ur20.C116_visible
#print axioms Ur20.C116_order
#print axioms Ur20.C117_settable
#print axioms Ur20.C117_possible
#print axioms Ur20.C118_write_back
#print axioms Ur20.C118_restore
#print axioms Ur20.C119_cycle
#print axioms Ur20.C119_builds
#print axioms Ur20.C119_tested
#print axioms Ur20.C119_parameters
#print axioms Ur20.C120_packed
#print axioms Ur20.C120_inputs
#print axioms Ur20.C120_runs
#print axioms Ur20.C121_compare
#print axioms Ur20.C121_zero
#print axioms Ur20.C121_nearest
#print axioms Ur20.C121_durations
#print axioms Ur20.C122_extended
#print axioms Ur20.C123_transmit_partial
#print axioms Ur20.C123_loss_partial
#print axioms Ur20.C123_recovers_partial
#print axioms Ur20.C123_receive_order
#print axioms Ur20.C123_receive_partial
#print axioms Ur20.C123_statement_false
#print axioms Ur20.C123_receive_false
#print axioms Ur20.C124_order
#print axioms Ur20.C124_loss
#print axioms Ur20.C124_delivered
#print axioms Ur20.C124_receive_order
#print axioms Ur20.C124_receive
#print axioms Ur20.C125_power
#print axioms Ur20.C125_start
#print axioms Ur20.C125_analog
#print axioms Ur20.C126_isolated
#print axioms Ur20.C127_rate
#print axioms Ur20.C127_writes
#print axioms Ur20.C128_duplex
#print axioms Ur20.C129_sent
#print axioms Ur20.C129_received
#print axioms Ur20.C129_early
#print axioms Ur20.C129_progress
#print axioms Ur20.C129_written
#print axioms Ur20.C129_coupler_sent
#print axioms Ur20.C129_coupler_received
#print axioms Ur20.C129_coupler_progress
#print axioms Ur20.C129_read
#print axioms Ur20.C129_coupler_read
#print axioms Ur20.C129_coupler_early
#print axioms Ur20.C130_values
#print axioms Ur20.C130_analog
#print axioms Ur20.C130_order
#print axioms Ur20.C130_arrives
#print axioms Ur20.C130_again
#print axioms Ur20.C131_contiguous
#print axioms Ur20.C131_exactly_once
#print axioms Ur20.C131_both
#print axioms Ur20.C131_progress
#print axioms Ur20.C132_digital
#print axioms Ur20.C132_analog
#print axioms Ur20.C132_order
#print axioms Ur20.C132_arrives
#print axioms Ur20.C133_sent
#print axioms Ur20.C133_received
#print axioms Ur20.C133_early
#print axioms Ur20.C133_read
#print axioms Ur20.C133_progress
#print axioms Ur20.C133_restarts
#print axioms Ur20.C133_coupler_sent
#print axioms Ur20.C133_coupler_received
#print axioms Ur20.C133_coupler_early
#print axioms Ur20.C133_coupler_read
#print axioms Ur20.C133_coupler_progress
#print axioms Ur20.C133_coupler_restarts
#print axioms Ur20.C134_source_is_model
#print axioms Ur20.C134_deterministic
#print axioms Ur20.C135_methods
#print axioms Ur20.C135_parameters
#print axioms Ur20.C135_defaults
#print axioms Ur20.C135_hertz
#print axioms Ur20.C136_discovery
#print axioms Ur20.C136_names
#print axioms Ur20.C136_conversions
#print axioms Ur20.C136_addresses
#print axioms Ur20.C137_setup
#print axioms Ur20.C137_panics
#print axioms Ur20.C137_inputs
#print axioms Ur20.C137_loop
#print axioms Ur20.C137_holds_last
#print axioms Ur20.C137_received
#print axioms Ur20.C137_sent
#print axioms Ur20.C137_sent_once
#print axioms Ur20.C138_set_output
#print axioms Ur20.C138_write
#print axioms Ur20.C138_read
#print axioms Ur20.C138_success
#print axioms Ur20.C138_error
#print axioms Ur20.C138_image
#print axioms Ur20.C138_inputs
#print axioms Ur20.C138_outputs
#print axioms Ur20.C138_serial
#print axioms Ur20.C138_undecodable
#print axioms Ur20.C139_order
#print axioms Ur20.C139_exactly_once
#print axioms Ur20.C139_receive_order
#print axioms Ur20.C139_receive
#print axioms Ur20.C139_since_restart
#print axioms Ur20.C139_delivered
#print axioms Ur20.C140_programs
#print axioms Ur20.C140_separate
#print axioms Ur20.C141_processor
#print axioms Ur20.C141_bound
#print axioms Ur20.C141_coupler
#print axioms Ur20.C142_exact
#print axioms Ur20.C142_source
#print axioms Ur20.C143_exact
#print axioms Ur20.C144_exact
#print axioms Ur20.C144_source
#print axioms Ur20.C145_exact
#print axioms Ur20.C145_delivered
#print axioms Ur20.C145_receive_order
#print axioms Ur20.C145_receive
#print axioms Ur20.C146_exact
#print axioms Ur20.C146_since_restart
#print axioms Ur20.C146_source
#print axioms Ur20.C146_source_since_restart
#print axioms Ur20.C147_repeats
#print axioms Ur20.C147_count
#print axioms Ur20.C147_closed
#print axioms Ur20.C147_recovers
#print axioms Ur20.C147_delivered
#print axioms Ur20.C147_source
#print axioms Ur20.C147_source_delivered
#print axioms Ur20.C148_sent
#print axioms Ur20.C148_received
#print axioms Ur20.C148_early
#print axioms Ur20.C148_read
#print axioms Ur20.C148_progress
#print axioms Ur20.C148_restarts
#print axioms Ur20.C149_sent
#print axioms Ur20.C149_received
#print axioms Ur20.C149_early
#print axioms Ur20.C149_read
#print axioms Ur20.C149_progress
#print axioms Ur20.C149_restarts
#print axioms Ur20.C150_values
#print axioms Ur20.C150_analog
#print axioms Ur20.C150_order
#print axioms Ur20.C150_progress
#print axioms Ur20.C150_source_values
#print axioms Ur20.C150_source_analog
#print axioms Ur20.C150_source_order
#print axioms Ur20.C150_source_progress
#print axioms Ur20.C151_sent
#print axioms Ur20.C151_received
#print axioms Ur20.C151_early
#print axioms Ur20.C151_progress
#print axioms Ur20.C151_read
#print axioms Ur20.C151_restarts
#print axioms Ur20.C151_source_sent
#print axioms Ur20.C151_source_received
#print axioms Ur20.C151_source_early
#print axioms Ur20.C151_source_progress
#print axioms Ur20.C151_source_read
#print axioms Ur20.C151_source_restarts
#print axioms Ur20.C152_sent
#print axioms Ur20.C152_bound
#print axioms Ur20.C152_received
#print axioms Ur20.C152_early
#print axioms Ur20.C152_read
#print axioms Ur20.C152_progress
#print axioms Ur20.C152_coupler_sent
#print axioms Ur20.C152_coupler_received
#print axioms Ur20.C152_coupler_early
#print axioms Ur20.C152_coupler_progress
#print axioms Ur20.C152_net_sent
#print axioms Ur20.C152_net_received
#print axioms Ur20.C152_net_early
#print axioms Ur20.C152_net_progress
#print axioms Ur20.C153_sent
#print axioms Ur20.C153_received
#print axioms Ur20.C153_early
#print axioms Ur20.C153_progress
#print axioms Ur20.C154_sent
#print axioms Ur20.C154_bound
#print axioms Ur20.C154_received
#print axioms Ur20.C154_early
#print axioms Ur20.C154_read
#print axioms Ur20.C154_progress
#print axioms Ur20.C154_restarts
#print axioms Ur20.C154_coupler_sent
#print axioms Ur20.C154_coupler_received
#print axioms Ur20.C154_coupler_early
#print axioms Ur20.C154_coupler_progress
#print axioms Ur20.C154_coupler_restarts
#print axioms Ur20.C154_net_sent
#print axioms Ur20.C154_net_received
#print axioms Ur20.C154_net_early
#print axioms Ur20.C154_net_progress
#print axioms Ur20.C154_net_restarts
#print axioms Ur20.C154_source_sent
#print axioms Ur20.C154_source_received
#print axioms Ur20.C154_source_early
#print axioms Ur20.C154_source_progress
#print axioms Ur20.C154_source_restarts
#print axioms Ur20.C155_sent
#print axioms Ur20.C155_received
#print axioms Ur20.C155_early
#print axioms Ur20.C155_progress
#print axioms Ur20.C155_restarts
#print axioms Ur20.C155_source_sent
#print axioms Ur20.C155_source_received
#print axioms Ur20.C155_source_early
#print axioms Ur20.C155_source_progress
#print axioms Ur20.C155_source_restarts
#print axioms Ur20.C156_values
#print axioms Ur20.C156_analog
#print axioms Ur20.C156_order
#print axioms Ur20.C156_progress
#print axioms Ur20.C156_source_values
#print axioms Ur20.C156_source_analog
#print axioms Ur20.C156_source_order
#print axioms Ur20.C156_source_progress
#print axioms Ur20.C157_inputs
#print axioms Ur20.C157_outputs
#print axioms Ur20.C157_cycle
#print axioms Ur20.C157_latest
#print axioms Ur20.C157_order
#print axioms Ur20.C157_used
#print axioms Ur20.C157_source_shown
#print axioms Ur20.C157_source_cycle
#print axioms Ur20.C157_source_latest
#print axioms Ur20.C157_source_order
#print axioms Ur20.C157_source_used
#print axioms Ur20.C158_values
#print axioms Ur20.C158_next
#print axioms Ur20.C158_analog
#print axioms Ur20.C158_source_values
#print axioms Ur20.C158_source_next
#print axioms Ur20.C158_source_analog
#print axioms Ur20.C159_digital
#print axioms Ur20.C159_analog
#print axioms Ur20.C159_order
#print axioms Ur20.C159_arrives
#print axioms Ur20.C159_source_digital
#print axioms Ur20.C159_source_analog
#print axioms Ur20.C159_source_order
#print axioms Ur20.C159_source_arrives
