import Verif.Proofs.Ieee
import Verif.Proofs.Types

namespace Pyogp
open Spec

theorem isDigits_leBytes (n : Nat) (en : Endian) (x : Nat) : IsDigits n en x (en.order (leBytes n x)) := by
  refine ⟨by simp, fun i hi => ?_⟩
  have hd : ((x : Int) / (256 : Int) ^ i % 256).toNat = x / 256 ^ i % 256 := by
    rw [← Int.toNat_natCast (x / 256 ^ i % 256)]
    simp [Int.natCast_emod, Int.natCast_ediv, Int.natCast_pow]
  rw [hd]
  cases en with
  | little => exact leBytes_getElem? hi
  | big =>
    simp only [Endian.order]
    rw [List.getElem?_reverse (by rw [leBytes_length]; omega), leBytes_length,
      show n - 1 - (n - 1 - i) = i by omega, leBytes_getElem? hi]

theorem isDigits_eq {n : Nat} {en : Endian} {x : Nat} {b : Bytes} (h : IsDigits n en x b) :
    b = en.order (leBytes n x) := by
  have h' := isDigits_leBytes n en x
  apply List.ext_getElem?
  intro i
  by_cases hi : i < n
  · cases en with
    | little => rw [h.2 i hi, h'.2 i hi]
    | big =>
      have e1 := h.2 (n - 1 - i) (by omega)
      have e2 := h'.2 (n - 1 - i) (by omega)
      simp only [show n - 1 - (n - 1 - i) = i by omega] at e1 e2
      rw [e1, e2]
  · rw [List.getElem?_eq_none (by rw [h.1]; omega), List.getElem?_eq_none (by rw [h'.1]; omega)]

theorem leVal_of_isDigits {n : Nat} {en : Endian} {x : Nat} {b : Bytes} (h : IsDigits n en x b) (hx : x < 256 ^ n) :
    leVal (en.order b) = x := by
  rw [isDigits_eq h, order_order, leVal_leBytes, Nat.mod_eq_of_lt hx]

theorem List.mapM_map_flt (xs : List F64) :
    (xs.map Num.flt).mapM (fun n => match n with | .flt x => some x | .int _ => none) = some xs := by
  induction xs with
  | nil => rfl
  | cons x xs ih => simp [ih]

theorem tuple_roundtrip (en : Endian) (tp : FloatFmt) (cs : List Bytes)
    (h : ∀ c ∈ cs, c.length = tp.size ∧ ∃ x, unpackNum en tp c = .ok x ∧ packNum en tp (.flt x) = .ok c) :
    ∃ xs : List F64, unpackTuple en tp cs.flatten = .ok (xs.map .flt) ∧
      packTuple en tp (xs.map .flt) = .ok cs.flatten ∧
      cs.map (unpackNum en tp) = xs.map .ok := by
  have hsz : 0 < tp.size := by cases tp <;> decide
  have hlen : cs.flatten.length = cs.length * tp.size := by
    induction cs with
    | nil => simp
    | cons c cs ih =>
      simp only [List.flatten_cons, List.length_append, List.length_cons]
      rw [ih (fun c' hc' => h c' (List.mem_cons_of_mem _ hc')), (h c List.mem_cons_self).1, Nat.add_mul, Nat.one_mul,
        Nat.add_comm]
  unfold unpackTuple
  rw [hlen, Nat.mul_div_cancel _ hsz]
  clear hlen
  induction cs with
  | nil => exact ⟨[], rfl, rfl, rfl⟩
  | cons c cs ih =>
    obtain ⟨xs, h1, h2, h3⟩ := ih (fun c' hc' => h c' (List.mem_cons_of_mem _ hc'))
    obtain ⟨hl, x, hx, hx'⟩ := h c List.mem_cons_self
    refine ⟨x :: xs, ?_, ?_, ?_⟩
    · simp only [List.flatten_cons, List.length_cons, unpackNums, List.map_cons]
      rw [← hl, List.take_left', List.drop_left', hx, h1]
      · rfl
      · rfl
      · rfl
    · simp only [List.map_cons, packTuple, hx', h2, List.flatten_cons]; rfl
    · simp [hx, h3]

theorem map_base {en : Endian} {tp : FloatFmt} {cs : List Bytes} {xs : List F64} {g : Bytes → Py PyVal}
    (h3 : cs.map (unpackNum en tp) = xs.map .ok)
    (base2 : ∀ c x, unpackNum en tp c = .ok x → g c = .ok (.num (.flt x))) :
    cs.map g = xs.map (fun x => .ok (.num (.flt x))) := by
  induction cs generalizing xs with
  | nil => cases xs with
    | nil => rfl
    | cons => simp at h3
  | cons c cs ih => cases xs with
    | nil => simp at h3
    | cons x xs =>
      simp only [List.map_cons, List.cons.injEq] at h3
      simp only [List.map_cons, List.cons.injEq]
      exact ⟨base2 _ _ h3.1, ih h3.2⟩

end Pyogp
