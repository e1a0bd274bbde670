import Verif.Spec.UdpSubscribers

/-!
# Specification: deferred parsing and subscribers
-/

namespace Pyogp.Spec

/-- The dispatcher with `ENABLE_DEFERRED_PACKET_PARSING` set to this. -/
def deferring (env : DEnv) (b : Bool) : DEnv := { env with deser := fun tr => { env.deser tr with deferred := b } }

/-- What the subscriber does to subscriptions, and whether it raises, is this program, whatever becomes of the messages it sends (it may send any messages and change any hosts). -/
def Follows : SProg → EvProg Message → Prop
  | .done, q => q = .done
  | .raise e, q => q = .raise e
  | .send _ _ _ k, q => ∀ r, Follows (k r) q
  | .setHost _ _ k, q => Follows k q
  | .subscribe n s k, q => ∃ q', q = .register n (.subscribe n s q') ∧ Follows k q'
  | .unsubscribe n s k, q => ∃ q', q = .unsubscribe n s q' ∧ ∀ r, Follows (k r) (q' r)
  | .register n k, q => ∃ q', q = .register n q' ∧ Follows k q'

/-- No circuit is declared trusted in this history. -/
def NoTrust (ops : List SOp) : Prop := ∀ a b, SOp.op (.setTrusted a b) ∉ ops

end Pyogp.Spec
