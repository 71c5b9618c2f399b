import Verif.Conformance.Analog
import Verif.Conformance.Basic
import Verif.Conformance.Counter
import Verif.Conformance.Coupler
import Verif.Conformance.Digital
import Verif.Conformance.Serial
import Verif.Instances.Basics
import Verif.Instances.Cycles
import Verif.Instances.Delivery
import Verif.Instances.Last
import Verif.Instances.Late
import Verif.Instances.Modules
import Verif.Instances.Networks
import Verif.Instances.Single
import Verif.Instances.Small
import Verif.Instances.Source
import Verif.Instances.Stations
import Verif.Lemmas.Address
import Verif.Lemmas.Analog
import Verif.Lemmas.AnalogModules
import Verif.Lemmas.Anywhere
import Verif.Lemmas.Basic
import Verif.Lemmas.Bits
import Verif.Lemmas.Coupler
import Verif.Lemmas.Create
import Verif.Lemmas.Decode
import Verif.Lemmas.Digital
import Verif.Lemmas.Encode
import Verif.Lemmas.F32
import Verif.Lemmas.F32Bits
import Verif.Lemmas.Fields
import Verif.Lemmas.Image
import Verif.Lemmas.Imperative
import Verif.Lemmas.Late
import Verif.Lemmas.LateTwin
import Verif.Lemmas.Module
import Verif.Lemmas.Params
import Verif.Lemmas.Protocol
import Verif.Lemmas.Raw
import Verif.Lemmas.Serial
import Verif.Lemmas.SerialCoupler
import Verif.Lemmas.Settle
import Verif.Lemmas.SettleCount
import Verif.Lemmas.SettleCountNeg
import Verif.Lemmas.SettleCountPos
import Verif.Lemmas.SettleCountZero
import Verif.Lemmas.SettleNeg
import Verif.Lemmas.SettlePos
import Verif.Lemmas.SettleSpec
import Verif.Lemmas.SettleZero
import Verif.Lemmas.Source
import Verif.Lemmas.SourceAnalog
import Verif.Lemmas.SourceCom
import Verif.Lemmas.SourceCoupler
import Verif.Lemmas.SourceDigital
import Verif.Lemmas.SourceFcnt
import Verif.Lemmas.SourceTables
import Verif.Lemmas.SourceTc
import Verif.Model.Analog
import Verif.Model.AnalogIn
import Verif.Model.AnalogOut
import Verif.Model.Com
import Verif.Model.Conversions
import Verif.Model.Coupler
import Verif.Model.Defaults
import Verif.Model.Digital
import Verif.Model.ErrorText
import Verif.Model.F32
import Verif.Model.F32Bits
import Verif.Model.Fcnt
import Verif.Model.Imperative
import Verif.Model.ImperativeCom
import Verif.Model.Outcome
import Verif.Model.StdIo
import Verif.Model.Types
import Verif.Model.Util
import Verif.Model.Values
import Verif.Props.Account
import Verif.Props.Addressing
import Verif.Props.Alone
import Verif.Props.Analog
import Verif.Props.AnalogCount
import Verif.Props.AnalogCoupler
import Verif.Props.AnalogHeld
import Verif.Props.Builds
import Verif.Props.Cable
import Verif.Props.CableProgress
import Verif.Props.CableRestart
import Verif.Props.Channels
import Verif.Props.Conversions
import Verif.Props.Counter
import Verif.Props.Coupler
import Verif.Props.Digital
import Verif.Props.Dropped
import Verif.Props.Edited
import Verif.Props.Extension
import Verif.Props.Failure
import Verif.Props.Faults
import Verif.Props.FloatBits
import Verif.Props.Frequency
import Verif.Props.Held
import Verif.Props.Hertz
import Verif.Props.HighByte
import Verif.Props.Histories
import Verif.Props.Image
import Verif.Props.Imperative
import Verif.Props.Interleaving
import Verif.Props.Isolation
import Verif.Props.Late
import Verif.Props.LateCable
import Verif.Props.LateDrop
import Verif.Props.LateDropSource
import Verif.Props.LateFail
import Verif.Props.LateFailNet
import Verif.Props.LateFailRestart
import Verif.Props.LateFailRestartSource
import Verif.Props.LateFailSource
import Verif.Props.LateNet
import Verif.Props.LateOutputs
import Verif.Props.LatePlant
import Verif.Props.LateReadBack
import Verif.Props.LateReadBackSource
import Verif.Props.LateRestart
import Verif.Props.LateSend
import Verif.Props.LateSendFail
import Verif.Props.LateSendFailSource
import Verif.Props.LateSendSource
import Verif.Props.LateShown
import Verif.Props.LateShownSource
import Verif.Props.LateSource
import Verif.Props.LateStation
import Verif.Props.LateStationSource
import Verif.Props.LateWire
import Verif.Props.LateWireDrop
import Verif.Props.LateWireSource
import Verif.Props.Loop
import Verif.Props.Lost
import Verif.Props.LostNet
import Verif.Props.LostPower
import Verif.Props.LostSource
import Verif.Props.Memory
import Verif.Props.Modules
import Verif.Props.Names
import Verif.Props.Network
import Verif.Props.Noninterference
import Verif.Props.Outage
import Verif.Props.Overlaid
import Verif.Props.Packing
import Verif.Props.Params
import Verif.Props.Pending
import Verif.Props.Power
import Verif.Props.PowerNet
import Verif.Props.Processor
import Verif.Props.Programs
import Verif.Props.Protocol
import Verif.Props.Receiving
import Verif.Props.Repeats
import Verif.Props.RepeatsSource
import Verif.Props.Restarts
import Verif.Props.Runs
import Verif.Props.Sending
import Verif.Props.Serial
import Verif.Props.SerialCoupler
import Verif.Props.Settable
import Verif.Props.Settings
import Verif.Props.Settle
import Verif.Props.Setup
import Verif.Props.Shown
import Verif.Props.Skipped
import Verif.Props.SkippedSource
import Verif.Props.Source
import Verif.Props.SourceCalls
import Verif.Props.SourceModules
import Verif.Props.SourceNet
import Verif.Props.SourcePower
import Verif.Props.SourceRuns
import Verif.Props.SourceTables
import Verif.Props.Station
import Verif.Props.StdIo
import Verif.Props.Success
import Verif.Props.Surplus
import Verif.Props.Thermal
import Verif.Props.Throughput
import Verif.Props.Transfers
import Verif.Props.Unreliable
import Verif.Props.Visible
import Verif.Props.Wiring
import Verif.Props.WriteBack
import Verif.Props.Writes
import Verif.Source.Error
import Verif.Source.FbcTrait
import Verif.Source.Lib
import Verif.Source.Prelude
import Verif.Source.Ur20_16do_p
import Verif.Source.Ur20_1com_232_485_422
import Verif.Source.Ur20_2fcnt_100
import Verif.Source.Ur20_4ai_rtd_diag
import Verif.Source.Ur20_4ai_tc_diag
import Verif.Source.Ur20_4ai_ui_16_diag
import Verif.Source.Ur20_4ao_ui_16
import Verif.Source.Ur20_4ao_ui_16_diag
import Verif.Source.Ur20_4ro_co_255
import Verif.Source.Ur20_8ai_i_16_diag_hd
import Verif.Source.Ur20_ai_ui_generic
import Verif.Source.Ur20_di_generic
import Verif.Source.Ur20_do_generic
import Verif.Source.Ur20_fbc_mod_tcp
import Verif.Source.Ur20_pf_o_1di_sil
import Verif.Source.Util
import Verif.SourceTests.Lib
import Verif.SourceTests.Prelude
import Verif.SourceTests.Ur20_16do_p
import Verif.SourceTests.Ur20_1com_232_485_422
import Verif.SourceTests.Ur20_2fcnt_100
import Verif.SourceTests.Ur20_4ai_rtd_diag
import Verif.SourceTests.Ur20_4ai_tc_diag
import Verif.SourceTests.Ur20_4ai_ui_16_diag
import Verif.SourceTests.Ur20_4ao_ui_16
import Verif.SourceTests.Ur20_4ao_ui_16_diag
import Verif.SourceTests.Ur20_4ro_co_255
import Verif.SourceTests.Ur20_8ai_i_16_diag_hd
import Verif.SourceTests.Ur20_ai_ui_generic
import Verif.SourceTests.Ur20_di_generic
import Verif.SourceTests.Ur20_do_generic
import Verif.SourceTests.Ur20_fbc_mod_tcp
import Verif.SourceTests.Ur20_pf_o_1di_sil
import Verif.SourceTests.Util
import Verif.Spec.Account
import Verif.Spec.Alone
import Verif.Spec.Analog
import Verif.Spec.Cable
import Verif.Spec.Capacity
import Verif.Spec.Catalogue
import Verif.Spec.Channels
import Verif.Spec.Coupler
import Verif.Spec.Cycle
import Verif.Spec.Digital
import Verif.Spec.Dropped
import Verif.Spec.Edited
import Verif.Spec.Extension
import Verif.Spec.Failure
import Verif.Spec.Faults
import Verif.Spec.HighByte
import Verif.Spec.Histories
import Verif.Spec.Image
import Verif.Spec.Interleaving
import Verif.Spec.Isolation
import Verif.Spec.Late
import Verif.Spec.LateCable
import Verif.Spec.LateDrop
import Verif.Spec.LateDropSource
import Verif.Spec.LateFail
import Verif.Spec.LateFailRestart
import Verif.Spec.LateFailSource
import Verif.Spec.LateNet
import Verif.Spec.LateOutputs
import Verif.Spec.LatePlant
import Verif.Spec.LateRestart
import Verif.Spec.LateSend
import Verif.Spec.LateSendFail
import Verif.Spec.LateSendFailSource
import Verif.Spec.LateSendSource
import Verif.Spec.LateShown
import Verif.Spec.LateShownSource
import Verif.Spec.LateSource
import Verif.Spec.LateStation
import Verif.Spec.LateStationSource
import Verif.Spec.LateWire
import Verif.Spec.LateWireDrop
import Verif.Spec.LateWireSource
import Verif.Spec.Loop
import Verif.Spec.Lost
import Verif.Spec.LostNet
import Verif.Spec.LostPower
import Verif.Spec.LostSource
import Verif.Spec.Memory
import Verif.Spec.Modules
import Verif.Spec.Names
import Verif.Spec.Network
import Verif.Spec.Noninterference
import Verif.Spec.Outage
import Verif.Spec.Packing
import Verif.Spec.Params
import Verif.Spec.Pending
import Verif.Spec.Power
import Verif.Spec.PowerNet
import Verif.Spec.Processor
import Verif.Spec.Programs
import Verif.Spec.Repeats
import Verif.Spec.RepeatsSource
import Verif.Spec.Restarts
import Verif.Spec.Sending
import Verif.Spec.SerialDevice
import Verif.Spec.SerialImage
import Verif.Spec.Settable
import Verif.Spec.Settings
import Verif.Spec.Settle
import Verif.Spec.Setup
import Verif.Spec.Skipped
import Verif.Spec.SkippedSource
import Verif.Spec.Source
import Verif.Spec.SourceModules
import Verif.Spec.SourceNet
import Verif.Spec.SourcePower
import Verif.Spec.SourceRuns
import Verif.Spec.Station
import Verif.Spec.Throughput
import Verif.Spec.Trace
import Verif.Spec.Transfers
import Verif.Spec.Unreliable
import Verif.Spec.Visible
import Verif.Spec.Wiring
import Verif.Axioms
