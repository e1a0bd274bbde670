import Verif.Spec.ZeroCode
import Verif.Model.Deserializer

/-! # C09, C10: zero-coding -/

namespace Pyogp
open Spec

theorem foldl_zeroCoded {p e : Bytes} (h : ZeroCoded p e) (acc : Bytes) :
    e.foldl zeroStep (acc, false) = (acc ++ p, false) := by
  induction h generalizing acc with
  | nil => simp
  | lit hc _ ih => simp [List.foldl_cons, zeroStep, hc, ih]
  | @run n p e h1 h2 _ ih =>
    have hn : UInt8.ofNat n ≠ 0 := by
      intro h
      have := congrArg UInt8.toNat h
      simp at this; omega
    have ht : (UInt8.ofNat n).toNat = n := by simp; omega
    simp only [List.foldl_cons, zeroStep, hn, ne_eq, not_true, if_false, not_false_eq_true, if_true, ht]
    rw [ih]
    have : List.replicate n (0 : UInt8) = [0] ++ List.replicate (n - 1) 0 := by
      obtain ⟨m, rfl⟩ : ∃ m, n = m + 1 := ⟨n - 1, by omega⟩
      simp [List.replicate_succ]
    rw [this]; simp

/-- **C09.** Expanding any zero-coded form of a payload gives back the payload. -/
theorem C09_zero_decode_encode (p e : Bytes) (h : ZeroCoded p e) : zeroCodeExpand e = p := by
  simp [zeroCodeExpand, foldl_zeroCoded h]

theorem zeroEncodeAux_coded (p : Bytes) : ∀ k, k ≤ 255 → ZeroCoded (List.replicate k 0 ++ p) (zeroEncodeAux k p) := by
  induction p with
  | nil =>
    intro k hk
    cases k with
    | zero => exact .nil
    | succ k => exact .run (by omega) hk .nil
  | cons c p ih =>
    intro k hk
    have hrep : ∀ m, List.replicate m (0 : UInt8) ++ 0 :: p = List.replicate (m + 1) 0 ++ p := by
      intro m; simp [List.replicate_succ']
    by_cases hc : c = 0
    · subst hc
      by_cases h255 : k = 255
      · have := ZeroCoded.run (n := k) (by omega) (by omega) (ih 1 (by omega))
        have e : zeroEncodeAux k (0 :: p) = 0 :: UInt8.ofNat k :: zeroEncodeAux 1 p := by
          rw [zeroEncodeAux, if_pos rfl, if_pos h255, h255]; rfl
        rw [e]; exact this
      · have := ih (k + 1) (by omega)
        rw [hrep]
        cases k <;> simp only [zeroEncodeAux, if_true, if_neg h255] <;> exact this
    · have h0 : ZeroCoded (c :: p) (c :: zeroEncodeAux 0 p) := .lit hc (ih 0 (by omega))
      cases k with
      | zero => simpa [zeroEncodeAux, hc] using h0
      | succ k =>
        have := ZeroCoded.run (n := k + 1) (by omega) hk h0
        simpa [zeroEncodeAux, hc] using this

/-- **C09.** In particular the encoder that uses maximal runs is inverted, for every payload. -/
theorem C09_zero_decode_encoder (p : Bytes) : ZeroCoded p (zeroEncode p) ∧ zeroCodeExpand (zeroEncode p) = p := by
  have : ZeroCoded p (zeroEncode p) := zeroEncodeAux_coded p 0 (by omega)
  exact ⟨this, C09_zero_decode_encode p _ this⟩

example : zeroEncode (List.replicate 300 0 ++ [7, 0, 8]) = [0, 255, 0, 45, 7, 0, 1, 8] := by decide +kernel

/-- Wrapped runs (`00 00 n` for `256 + n` zeros, which some encoders use) are not understood: they give `1 + n` zeros. -/
theorem C09_wrapped_runs_not_supported (n : Nat) (h1 : 1 ≤ n) (h2 : n ≤ 255) :
    zeroCodeExpand [0, 0, UInt8.ofNat n] = List.replicate (1 + n) 0 := by
  have hn : UInt8.ofNat n ≠ 0 := by
    intro h
    have := congrArg UInt8.toNat h
    simp at this; omega
  have ht : (UInt8.ofNat n).toNat = n := by simp; omega
  simp only [zeroCodeExpand, List.foldl_cons, List.foldl_nil, zeroStep, hn, ne_eq, not_true, if_false,
    not_false_eq_true, if_true, ht]
  obtain ⟨m, rfl⟩ : ∃ m, n = m + 1 := ⟨n - 1, by omega⟩
  rw [show 1 + (m + 1) = m + 1 + 1 by omega]
  simp [List.replicate_succ]

theorem foldl_literals (e : Bytes) : ∀ acc z, ((e.foldl zeroStep (acc, z)).1).filter (· ≠ 0) =
    acc.filter (· ≠ 0) ++ literals z e := by
  induction e with
  | nil => intro acc z; simp [literals]
  | cons c e ih =>
    intro acc z
    by_cases hc : c = 0
    · subst hc
      simp only [List.foldl_cons, zeroStep, ne_eq, not_true, if_false, literals, if_true]
      rw [ih]; simp
    · cases z with
      | true =>
        simp only [List.foldl_cons, zeroStep, ne_eq, hc, not_false_eq_true, if_true, literals, if_false]
        rw [ih]; simp
      | false =>
        simp only [List.foldl_cons, zeroStep, ne_eq, hc, not_false_eq_true, if_true, literals, if_false,
          Bool.false_eq_true]
        rw [ih]; simp [hc]

theorem foldl_length (e : Bytes) : ∀ acc z,
    (e.foldl zeroStep (acc, z)).1.length ≤ acc.length + 255 * e.length ∧
    acc.length ≤ (e.foldl zeroStep (acc, z)).1.length := by
  induction e with
  | nil => intro acc z; simp
  | cons c e ih =>
    intro acc z
    simp only [List.foldl_cons, zeroStep]
    have hc : c.toNat < 256 := c.toNat_lt
    split
    · split
      · have := ih (acc ++ List.replicate (c.toNat - 1) 0) false
        simp only [List.length_append, List.length_replicate, List.length_cons] at *
        omega
      · have := ih (acc ++ [c]) false
        simp only [List.length_append, List.length_nil, List.length_cons] at *
        omega
    · have := ih (acc ++ [c]) true
      simp only [List.length_append, List.length_nil, List.length_cons] at *
      omega

theorem foldl_nonzero (e : Bytes) (h : ∀ c ∈ e, c ≠ 0) : ∀ acc, e.foldl zeroStep (acc, false) = (acc ++ e, false) := by
  induction e with
  | nil => simp
  | cons c e ih =>
    intro acc
    have := h c List.mem_cons_self
    simp only [List.foldl_cons, zeroStep, ne_eq, this, not_false_eq_true, if_true, Bool.false_eq_true, if_false]
    rw [ih (fun c hc => h c (List.mem_cons_of_mem _ hc))]
    simp

/-- **C10.** On arbitrary bytes (not only zero-coded ones) expansion is defined, leaves strings without zero bytes
alone, keeps exactly the literal non-zero bytes in order (everything else in the result is zero), and grows its input
by at most a factor 255. -/
theorem C10_zero_decode_total (e : Bytes) :
    ((∀ c ∈ e, c ≠ 0) → zeroCodeExpand e = e) ∧
    (zeroCodeExpand e).filter (· ≠ 0) = literals false e ∧
    (zeroCodeExpand e).length ≤ 255 * e.length := by
  refine ⟨?_, ?_, ?_⟩
  · intro h; simp [zeroCodeExpand, foldl_nonzero e h]
  · have := foldl_literals e [] false
    simpa [zeroCodeExpand] using this
  · have := (foldl_length e [] false).1
    simpa [zeroCodeExpand] using this

example : zeroCodeExpand [0, 255, 3, 0, 0, 2] = List.replicate 255 0 ++ [3, 0, 0, 0] := by decide +kernel

end Pyogp
