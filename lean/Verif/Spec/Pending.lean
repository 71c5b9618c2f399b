import Verif.Spec.Histories

/-!
# Specification: what is written since the last cycle

The value that waits to be written to a channel, read off the calls of the application alone.
-/

namespace Ur20.Spec

/-- The configuration has the channel `a`. -/
def ChannelExists (cfg : CouplerConfig) (a : Address) : Prop :=
  ∃ t, cfg.modules[a.module]? = some t ∧ a.channel < t.channelCount

open Classical in
/-- The value of the last `set_output` to `a` since the last cycle whose images could be decoded,
or `w` if there was neither. Calls for channels that do not exist do not count, and a serial module
that lacks one of its offsets is not reached by cycles. -/
noncomputable def waitingFor (cfg : CouplerConfig) (a : Address) :
    Option ChannelValue → List COp → Option ChannelValue
  | w, [] => w
  | w, .setOutput b v :: ops =>
    waitingFor cfg a (if b = a ∧ ChannelExists cfg a then some v else w) ops
  | w, .next pi po :: ops =>
    waitingFor cfg a (if Decodable cfg pi po ∧ ¬ DetachedSerial cfg a.module then none else w) ops
  | w, _ :: ops => waitingFor cfg a w ops

/-- What a new coupler has waiting for `a` after the calls `ops`. -/
noncomputable def waiting (cfg : CouplerConfig) (ops : List COp) (a : Address) :
    Option ChannelValue := waitingFor cfg a none ops

end Ur20.Spec
