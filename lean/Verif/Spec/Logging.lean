import Verif.Model.EqLogging
import Verif.Spec.Printing

/-!
# Hosts a log message can name
-/

namespace Pyogp
namespace Spec

/-- The attributes of a host can be put together in one text: its `ip` is a `str`, or a `unicode` object that is ASCII. -/
def HostShown (ip : String → Val) (h : Host) : Prop :=
  Mixable [match h.ip with | .none => .none | .zero => .int 0 | .str s => ip s, match h.port with | none => .none | some p => .int p]

/-- Subscribers do not turn a host into one that has this property no more. -/
def HandlersKeep (good : Host → Prop) : Prog → Prop
  | .done => True
  | .raise _ => True
  | .send _ _ _ k => ∀ x, HandlersKeep good (k x)
  | .setHost _ v k => good v ∧ HandlersKeep good k

/-- Nothing but hosts with this property is used: none at the start, none that is set, none that a subscriber makes. -/
structure OnlyHosts (good : Host → Prop) (env : DEnv) (st : DState) (ops : List Op) : Prop where
  start : ∀ r, good (st.hosts r)
  set : ∀ r v, .setHost r v ∈ ops → good v
  handlers : ∀ tr m, HandlersKeep good (env.handler tr m)

/-- The host of the event queue can be shown: there is none, or it can be put together in one text. -/
def EqHostShown (L : EqLog) : Prop := ∀ h, L.host = some h → HostShown L.ip h

end Spec
end Pyogp
