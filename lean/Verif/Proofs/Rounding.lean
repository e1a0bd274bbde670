import Mathlib.Tactic.Linarith
import Mathlib.Tactic.Ring
import Mathlib.Tactic.FieldSimp
import Mathlib.Tactic.Positivity
import Mathlib.Tactic.NormNum
import Mathlib.Algebra.Order.Round
import Verif.Spec.Rounding

namespace Pyogp
open Spec

set_option linter.unusedSectionVars false

variable {K : Type} [Field K] [LinearOrder K] [IsStrictOrderedRing K] [FloorRing K]

theorem nearestInt_error (y : K) : |(nearestInt y : K) - y| ≤ 1 / 2 := by
  have h1 := Int.floor_le y
  have h2 := Int.lt_floor_add_one y
  unfold nearestInt
  split
  · rw [abs_le]; constructor <;> linarith
  · split
    · push_cast; rw [abs_le]; constructor <;> linarith
    · split
      · rw [abs_le]; constructor <;> linarith
      · push_cast; rw [abs_le]; constructor <;> linarith

theorem nearestInt_mono {x y : K} (h : x ≤ y) : nearestInt x ≤ nearestInt y := by
  have hx := nearestInt_error x
  have hy := nearestInt_error y
  rw [abs_le] at hx hy
  by_contra hc
  have hc : nearestInt y + 1 ≤ nearestInt x := by omega
  have hc' : (nearestInt y : K) + 1 ≤ nearestInt x := by exact_mod_cast hc
  -- then x = y = half-way
  have hxy : x = y := le_antisymm h (by linarith)
  subst hxy
  omega

theorem nearestInt_int (n : ℤ) : nearestInt (n : K) = n := by
  unfold nearestInt
  simp

theorem roundTo_zero (p : ℕ) : roundTo p (0 : K) = 0 := if_pos rfl

theorem roundTo_relError (p : ℕ) : RelError (roundTo p : K → K) (1 / 2 ^ p) := by
  intro x
  by_cases hx : x = 0
  · subst hx; simp [roundTo_zero]
  · unfold roundTo
    rw [if_neg hx]
    have hxa : 0 < |x| := abs_pos.mpr hx
    set e := Int.log 2 |x| + 1 - (p : ℤ) with he
    have hE : (0 : K) < 2 ^ e := zpow_pos (by norm_num) e
    have h1 := nearestInt_error (x / 2 ^ e)
    have h2 : (nearestInt (x / 2 ^ e) : K) * 2 ^ e - x = ((nearestInt (x / 2 ^ e) : K) - x / 2 ^ e) * 2 ^ e := by
      field_simp
    rw [h2, abs_mul, abs_of_pos hE]
    have h3 : (2 : K) ^ (Int.log 2 |x|) ≤ |x| := by
      have := Int.zpow_log_le_self (R := K) (b := 2) (by norm_num) hxa
      exact_mod_cast this
    have h4 : (2 : K) ^ e = 2 ^ (Int.log 2 |x|) * 2 / 2 ^ p := by
      rw [he, zpow_sub₀ (by norm_num), zpow_add₀ (by norm_num)]
      simp
    calc |(nearestInt (x / 2 ^ e) : K) - x / 2 ^ e| * 2 ^ e ≤ 1 / 2 * 2 ^ e := by
          apply mul_le_mul_of_nonneg_right h1 hE.le
      _ = 1 / 2 ^ p * 2 ^ (Int.log 2 |x|) := by rw [h4]; field_simp
      _ ≤ 1 / 2 ^ p * |x| := by
          apply mul_le_mul_of_nonneg_left h3
          positivity

theorem pow_split (L : ℤ) (p : ℕ) (hp : 1 ≤ p) : (2 : K) ^ L = ((2 ^ (p - 1) : ℤ) : K) * 2 ^ (L + 1 - (p : ℤ)) := by
  have h : ((2 ^ (p - 1) : ℤ) : K) = (2 : K) ^ ((p : ℤ) - 1) := by
    obtain ⟨q, rfl⟩ : ∃ q, p = q + 1 := ⟨p - 1, by omega⟩
    push_cast
    simp
  rw [h, ← zpow_add₀ (by norm_num)]
  congr 1
  ring

theorem pow_split' (L : ℤ) (p : ℕ) : (2 : K) ^ (L + 1) = ((2 ^ p : ℤ) : K) * 2 ^ (L + 1 - (p : ℤ)) := by
  have h : ((2 ^ p : ℤ) : K) = (2 : K) ^ (p : ℤ) := by push_cast; simp
  rw [h, ← zpow_add₀ (by norm_num)]
  congr 1
  ring

/-- Multiples of the unit in the last place bound the rounding as they bound the number. -/
theorem roundTo_le {p : ℕ} {x : K} (hx : x ≠ 0) (n : ℤ) (h : x ≤ n * 2 ^ (Int.log 2 |x| + 1 - (p : ℤ))) :
    roundTo p x ≤ n * 2 ^ (Int.log 2 |x| + 1 - (p : ℤ)) := by
  have hE : (0 : K) < 2 ^ (Int.log 2 |x| + 1 - (p : ℤ)) := zpow_pos (by norm_num) _
  unfold roundTo
  rw [if_neg hx]
  apply mul_le_mul_of_nonneg_right _ hE.le
  have h1 : x / 2 ^ (Int.log 2 |x| + 1 - (p : ℤ)) ≤ n := by rw [div_le_iff₀ hE]; exact h
  have := nearestInt_mono h1
  rw [nearestInt_int] at this
  exact_mod_cast this

theorem le_roundTo {p : ℕ} {x : K} (hx : x ≠ 0) (n : ℤ) (h : n * 2 ^ (Int.log 2 |x| + 1 - (p : ℤ)) ≤ x) :
    n * 2 ^ (Int.log 2 |x| + 1 - (p : ℤ)) ≤ roundTo p x := by
  have hE : (0 : K) < 2 ^ (Int.log 2 |x| + 1 - (p : ℤ)) := zpow_pos (by norm_num) _
  unfold roundTo
  rw [if_neg hx]
  apply mul_le_mul_of_nonneg_right _ hE.le
  have h1 : (n : K) ≤ x / 2 ^ (Int.log 2 |x| + 1 - (p : ℤ)) := by rw [le_div_iff₀ hE]; exact h
  have := nearestInt_mono h1
  rw [nearestInt_int] at this
  exact_mod_cast this

theorem roundTo_nonneg (p : ℕ) {x : K} (h : 0 ≤ x) : 0 ≤ roundTo p x := by
  by_cases hx : x = 0
  · rw [hx, roundTo_zero]
  · have := le_roundTo (p := p) hx 0 (by simpa using h)
    simpa using this

theorem roundTo_nonpos (p : ℕ) {x : K} (h : x ≤ 0) : roundTo p x ≤ 0 := by
  by_cases hx : x = 0
  · rw [hx, roundTo_zero]
  · have := roundTo_le (p := p) hx 0 (by simpa using h)
    simpa using this

theorem roundTo_same {p : ℕ} {x y : K} (hx : x ≠ 0) (hy : y ≠ 0) (hl : Int.log 2 |x| = Int.log 2 |y|) (h : x ≤ y) : roundTo p x ≤ roundTo p y := by
  unfold roundTo
  rw [if_neg hx, if_neg hy, hl]
  have hE : (0 : K) < 2 ^ (Int.log 2 |y| + 1 - (p : ℤ)) := zpow_pos (by norm_num) _
  apply mul_le_mul_of_nonneg_right _ hE.le
  have := nearestInt_mono (div_le_div_of_nonneg_right h hE.le)
  exact_mod_cast this

/-- Rounding to at least one bit is monotone. -/
theorem roundTo_mono (p : ℕ) (hp : 1 ≤ p) : Monotone (roundTo p : K → K) := by
  intro x y h
  rcases lt_trichotomy x 0 with hx | hx | hx
  · rcases lt_or_ge y 0 with hy | hy
    · have hxn : x ≠ 0 := hx.ne
      have hyn : y ≠ 0 := hy.ne
      have hxa : 0 < |x| := abs_pos.mpr hxn
      have hya : 0 < |y| := abs_pos.mpr hyn
      have hle : |y| ≤ |x| := by rw [abs_of_neg hx, abs_of_neg hy]; linarith
      rcases (Int.log_mono_right (b := 2) hya hle).lt_or_eq with hlt | heq
      · have h1 : (2 : K) ^ Int.log 2 |x| ≤ |x| := by
          have := Int.zpow_log_le_self (R := K) (b := 2) (by norm_num) hxa
          exact_mod_cast this
        have h2 : |y| < (2 : K) ^ (Int.log 2 |y| + 1) := by
          have := Int.lt_zpow_succ_log_self (R := K) (b := 2) (by norm_num) |y|
          exact_mod_cast this
        have h3 : (2 : K) ^ (Int.log 2 |y| + 1) ≤ 2 ^ Int.log 2 |x| := zpow_le_zpow_right₀ (by norm_num) (by omega)
        have ax : |x| = -x := abs_of_neg hx
        have ay : |y| = -y := abs_of_neg hy
        have e1 := pow_split (K := K) (Int.log 2 |x|) p hp
        have e2 := pow_split' (K := K) (Int.log 2 |y|) p
        have g1 : roundTo p x ≤ -(2 : K) ^ Int.log 2 |x| := by
          have := roundTo_le (p := p) hxn (-(2 ^ (p - 1) : ℤ)) (by push_cast at e1 ⊢; linarith)
          push_cast at e1 this ⊢
          linarith
        have g2 : -(2 : K) ^ (Int.log 2 |y| + 1) ≤ roundTo p y := by
          have := le_roundTo (p := p) hyn (-(2 ^ p : ℤ)) (by push_cast at e2 ⊢; linarith)
          push_cast at e2 this ⊢
          linarith
        linarith
      · exact roundTo_same hxn hyn heq.symm h
    · exact (roundTo_nonpos p hx.le).trans (roundTo_nonneg p hy)
  · rw [hx, roundTo_zero]; exact roundTo_nonneg p (hx ▸ h)
  · have hy : 0 < y := lt_of_lt_of_le hx h
    have hxn : x ≠ 0 := hx.ne'
    have hyn : y ≠ 0 := hy.ne'
    have hxa : 0 < |x| := abs_pos.mpr hxn
    have hya : 0 < |y| := abs_pos.mpr hyn
    have hle : |x| ≤ |y| := by rw [abs_of_pos hx, abs_of_pos hy]; exact h
    rcases (Int.log_mono_right (b := 2) hxa hle).lt_or_eq with hlt | heq
    · have h1 : (2 : K) ^ Int.log 2 |y| ≤ |y| := by
        have := Int.zpow_log_le_self (R := K) (b := 2) (by norm_num) hya
        exact_mod_cast this
      have h2 : |x| < (2 : K) ^ (Int.log 2 |x| + 1) := by
        have := Int.lt_zpow_succ_log_self (R := K) (b := 2) (by norm_num) |x|
        exact_mod_cast this
      have h3 : (2 : K) ^ (Int.log 2 |x| + 1) ≤ 2 ^ Int.log 2 |y| := zpow_le_zpow_right₀ (by norm_num) (by omega)
      have ax : |x| = x := abs_of_pos hx
      have ay : |y| = y := abs_of_pos hy
      have e1 := pow_split (K := K) (Int.log 2 |y|) p hp
      have e2 := pow_split' (K := K) (Int.log 2 |x|) p
      have g1 : (2 : K) ^ Int.log 2 |y| ≤ roundTo p y := by
        have := le_roundTo (p := p) hyn (2 ^ (p - 1) : ℤ) (by linarith)
        linarith
      have g2 : roundTo p x ≤ (2 : K) ^ (Int.log 2 |x| + 1) := by
        have := roundTo_le (p := p) hxn (2 ^ p : ℤ) (by linarith)
        linarith
      linarith
    · exact roundTo_same hxn hyn heq h

end Pyogp
