import Verif.Model.Received
import Verif.Spec.Objects

/-!
# Specification: received messages as objects
-/

namespace Pyogp.Spec

/-- The subscriber does not change the name or the blocks of the message object (it may send it on). -/
inductive LeavesContent : RProg → Prop
  | done : LeavesContent .done
  | raise (e : Exc) : LeavesContent (.raise e)
  | look (k : Message → RProg) : (∀ m, LeavesContent (k m)) → LeavesContent (.look k)
  | send (m : Message) (r : HostRef) (mode : SendMode) (k : Py (Option Bytes) → RProg) : (∀ x, LeavesContent (k x)) → LeavesContent (.send m r mode k)
  | forward (r : HostRef) (mode : SendMode) (k : Py (Option Bytes) → RProg) : (∀ x, LeavesContent (k x)) → LeavesContent (.forward r mode k)
  | setHost (r : HostRef) (v : Host) (k : RProg) : LeavesContent k → LeavesContent (.setHost r v k)

/-- The subscriber neither changes the message object nor sends it on. -/
inductive OnlyReads : RProg → Prop
  | done : OnlyReads .done
  | raise (e : Exc) : OnlyReads (.raise e)
  | look (k : Message → RProg) : (∀ m, OnlyReads (k m)) → OnlyReads (.look k)
  | send (m : Message) (r : HostRef) (mode : SendMode) (k : Py (Option Bytes) → RProg) : (∀ x, OnlyReads (k x)) → OnlyReads (.send m r mode k)
  | setHost (r : HostRef) (v : Host) (k : RProg) : OnlyReads k → OnlyReads (.setHost r v k)

/-- What a subscriber that only reads does when the message is `m`, and then `next`. -/
def asValue (m : Message) (next : Prog) : RProg → Prog
  | .done => next
  | .raise e => if e = .keyError then .done else .raise e
  | .look k => asValue m next (k m)
  | .write _ k => asValue m next k
  | .send m' r mode k => .send m' r mode (fun x => asValue m next (k x))
  | .forward _ _ k => asValue m next (k (.ok none))
  | .setHost r v k => .setHost r v (asValue m next k)

/-- The subscribers one after the other. -/
def allAsValue (m : Message) (ps : List RProg) : Prog := ps.foldr (fun p next => asValue m next p) .done

end Pyogp.Spec
