import Verif.Model.Base

/-!
# LLSD values

The values that `llbase.llsd.parse` produces and that HTTP bodies, `message.xml` and event-queue responses carry.
The XML parser/formatter itself (`llbase`, not part of `/repo`) is not modelled; values are exchanged as trees.
-/

namespace Pyogp

/-- An LLSD value.  Maps are association lists in iteration order. -/
inductive Llsd
  | undef
  | bool (b : Bool)
  | int (i : Int)
  | real (bits : BitVec 64)
  | str (s : String)
  | uuid (u : BitVec 128)
  | binary (b : Bytes)
  | arr (l : List Llsd)
  | map (l : List (String × Llsd))
  deriving Repr

mutual
def Llsd.decEq : (a b : Llsd) → Decidable (a = b)
  | .undef, .undef => isTrue rfl
  | .bool a, .bool b => if h : a = b then isTrue (by rw [h]) else isFalse (by intro h'; cases h'; exact h rfl)
  | .int a, .int b => if h : a = b then isTrue (by rw [h]) else isFalse (by intro h'; cases h'; exact h rfl)
  | .real a, .real b => if h : a = b then isTrue (by rw [h]) else isFalse (by intro h'; cases h'; exact h rfl)
  | .str a, .str b => if h : a = b then isTrue (by rw [h]) else isFalse (by intro h'; cases h'; exact h rfl)
  | .uuid a, .uuid b => if h : a = b then isTrue (by rw [h]) else isFalse (by intro h'; cases h'; exact h rfl)
  | .binary a, .binary b => if h : a = b then isTrue (by rw [h]) else isFalse (by intro h'; cases h'; exact h rfl)
  | .arr a, .arr b => match Llsd.decEqList a b with
    | isTrue h => isTrue (by rw [h])
    | isFalse h => isFalse (by intro h'; cases h'; exact h rfl)
  | .map a, .map b => match Llsd.decEqMap a b with
    | isTrue h => isTrue (by rw [h])
    | isFalse h => isFalse (by intro h'; cases h'; exact h rfl)
  | .undef, .bool _ | .undef, .int _ | .undef, .real _ | .undef, .str _ | .undef, .uuid _ | .undef, .binary _
  | .undef, .arr _ | .undef, .map _
  | .bool _, .undef | .bool _, .int _ | .bool _, .real _ | .bool _, .str _ | .bool _, .uuid _ | .bool _, .binary _
  | .bool _, .arr _ | .bool _, .map _
  | .int _, .undef | .int _, .bool _ | .int _, .real _ | .int _, .str _ | .int _, .uuid _ | .int _, .binary _
  | .int _, .arr _ | .int _, .map _
  | .real _, .undef | .real _, .bool _ | .real _, .int _ | .real _, .str _ | .real _, .uuid _ | .real _, .binary _
  | .real _, .arr _ | .real _, .map _
  | .str _, .undef | .str _, .bool _ | .str _, .int _ | .str _, .real _ | .str _, .uuid _ | .str _, .binary _
  | .str _, .arr _ | .str _, .map _
  | .uuid _, .undef | .uuid _, .bool _ | .uuid _, .int _ | .uuid _, .real _ | .uuid _, .str _ | .uuid _, .binary _
  | .uuid _, .arr _ | .uuid _, .map _
  | .binary _, .undef | .binary _, .bool _ | .binary _, .int _ | .binary _, .real _ | .binary _, .str _
  | .binary _, .uuid _ | .binary _, .arr _ | .binary _, .map _
  | .arr _, .undef | .arr _, .bool _ | .arr _, .int _ | .arr _, .real _ | .arr _, .str _ | .arr _, .uuid _
  | .arr _, .binary _ | .arr _, .map _
  | .map _, .undef | .map _, .bool _ | .map _, .int _ | .map _, .real _ | .map _, .str _ | .map _, .uuid _
  | .map _, .binary _ | .map _, .arr _ => isFalse (by intro h; cases h)
def Llsd.decEqList : (a b : List Llsd) → Decidable (a = b)
  | [], [] => isTrue rfl
  | [], _ :: _ => isFalse (by intro h; cases h)
  | _ :: _, [] => isFalse (by intro h; cases h)
  | x :: xs, y :: ys => match Llsd.decEq x y with
    | isFalse h => isFalse (by intro h'; cases h'; exact h rfl)
    | isTrue h => match Llsd.decEqList xs ys with
      | isTrue h2 => isTrue (by rw [h, h2])
      | isFalse h2 => isFalse (by intro h'; cases h'; exact h2 rfl)
def Llsd.decEqMap : (a b : List (String × Llsd)) → Decidable (a = b)
  | [], [] => isTrue rfl
  | [], _ :: _ => isFalse (by intro h; cases h)
  | _ :: _, [] => isFalse (by intro h; cases h)
  | (k, x) :: xs, (l, y) :: ys =>
    if hk : k = l then
      match Llsd.decEq x y with
      | isFalse h => isFalse (by intro h'; cases h'; exact h rfl)
      | isTrue h => match Llsd.decEqMap xs ys with
        | isTrue h2 => isTrue (by rw [hk, h, h2])
        | isFalse h2 => isFalse (by intro h'; cases h'; exact h2 rfl)
    else isFalse (by intro h'; cases h'; exact hk rfl)
end

instance : DecidableEq Llsd := Llsd.decEq

end Pyogp
