import Verif.Model.Values

/-! # Conversions into channel values -/

namespace Ur20

/-- `From<ProcessInput> for ChannelValue` of the counter module,
`src/ur20_2fcnt_100.rs:82-86`. -/
def ChannelValue.ofFcntIn (i : FcntIn) : ChannelValue := .fcntIn i

/-- `From<ProcessOutput> for ChannelValue` of the counter module,
`src/ur20_2fcnt_100.rs:88-92`. -/
def ChannelValue.ofFcntOut (o : FcntOut) : ChannelValue := .fcntOut o

/-- `From<ProcessInput> for ChannelValue` of the safe power feed module,
`src/ur20_pf_o_1di_sil.rs:32-36`. -/
def ChannelValue.ofSilIn (i : SilIn) : ChannelValue := .silPFIn i

end Ur20
