import Verif.Proofs.Outcomes

namespace Pyogp
open Spec

theorem foldl_zeroStep_acc (l : Bytes) : ∀ acc z, (l.foldl zeroStep (acc, z)).1 = acc ++ (l.foldl zeroStep ([], z)).1 := by
  induction l with
  | nil => intro acc z; simp
  | cons c l ih =>
    intro acc z
    have h : ∀ acc, zeroStep (acc, z) c = (acc ++ (zeroStep ([], z) c).1, (zeroStep ([], z) c).2) := by
      intro acc
      unfold zeroStep
      by_cases hc : c = 0 <;> cases z <;> simp [hc]
    rw [List.foldl_cons, List.foldl_cons, h acc, ih, ih (zeroStep ([], z) c).1, List.append_assoc]

theorem expand_nonzero {c : UInt8} (hc : c ≠ 0) (l : Bytes) : zeroCodeExpand (c :: l) = c :: zeroCodeExpand l := by
  unfold zeroCodeExpand
  rw [List.foldl_cons]
  have : zeroStep ([], false) c = ([c], false) := by simp [zeroStep, hc]
  rw [this, foldl_zeroStep_acc]; rfl

theorem expand_zero (l : Bytes) : ∃ X, zeroCodeExpand (0 :: l) = 0 :: X := by
  unfold zeroCodeExpand
  rw [List.foldl_cons]
  have : zeroStep ([], false) 0 = ([0], true) := rfl
  rw [this, foldl_zeroStep_acc]
  exact ⟨_, rfl⟩

theorem expand_length (l : Bytes) : l.length ≤ 2 * (zeroCodeExpand l).length := by
  have key : ∀ (l : Bytes) (z : Bool),
      l.length ≤ 2 * (l.foldl zeroStep ([], z)).1.length + (if z then 1 else 0) := by
    intro l
    induction l with
    | nil => intro z; simp
    | cons c l ih =>
      intro z
      rw [List.foldl_cons]
      by_cases hc : c = 0
      · have : zeroStep ([], z) c = ([0], true) := by simp [zeroStep, hc]
        rw [this, foldl_zeroStep_acc]
        have := ih true
        simp at *; cases z <;> simp <;> omega
      · cases z
        · have : zeroStep ([], false) c = ([c], false) := by simp [zeroStep, hc]
          rw [this, foldl_zeroStep_acc]
          have := ih false
          simp at *; omega
        · have : zeroStep ([], true) c = (List.replicate (c.toNat - 1) 0, false) := by simp [zeroStep, hc]
          rw [this, foldl_zeroStep_acc]
          have := ih false
          simp at *; omega
  have := key l false
  simpa [zeroCodeExpand] using this

theorem header_high {dict : TemplateDict} {a : UInt8} (h : a ≠ 0xff) (l : Bytes) : ∃ r, decodeHeader dict (a :: l) = .ok r := by
  have hf : decodeFrequency (a :: l) = .ok .high := by simp [decodeFrequency, index, ok_bind, h]
  obtain ⟨x, hx⟩ := structUnpack_total (d := .big) (f := .B) (raw := slice (a :: l) 0 1) (by simp [slice, IntFmt.size])
  exact ⟨dict.getTemplateByPair .high x.toNat, by simp only [decodeHeader, decodeNum, hf, ok_bind, hx]⟩

theorem header_medium {dict : TemplateDict} {b : UInt8} (h : b ≠ 0xff) (l : Bytes) :
    ∃ r, decodeHeader dict (0xff :: b :: l) = .ok r := by
  have hf : decodeFrequency (0xff :: b :: l) = .ok .medium := by simp [decodeFrequency, index, ok_bind, h]
  obtain ⟨x, hx⟩ := structUnpack_total (d := .big) (f := .B) (raw := slice (0xff :: b :: l) 1 2) (by simp [slice, IntFmt.size])
  exact ⟨dict.getTemplateByPair .medium x.toNat, by simp only [decodeHeader, decodeNum, hf, ok_bind, hx]⟩

theorem header_long {dict : TemplateDict} (a b c d : UInt8) (l : Bytes) :
    ∃ r, decodeHeader dict (a :: b :: c :: d :: l) = .ok r := by
  by_cases ha : a = 0xff
  · subst ha
    by_cases hb : b = 0xff
    · subst hb
      by_cases hc : c = 0xff
      · subst hc
        have hf : decodeFrequency (0xff :: 0xff :: 0xff :: d :: l) = .ok .fixed := by simp [decodeFrequency, index, ok_bind]
        obtain ⟨x, hx⟩ := structUnpack_total (d := .big) (f := .B) (raw := slice (0xff :: 0xff :: 0xff :: d :: l) 3 4)
          (by simp [slice, IntFmt.size])
        exact ⟨dict.getTemplateByPair .fixed x.toNat, by simp only [decodeHeader, decodeNum, hf, ok_bind, hx]⟩
      · have hf : decodeFrequency (0xff :: 0xff :: c :: d :: l) = .ok .low := by simp [decodeFrequency, index, ok_bind, hc]
        obtain ⟨x, hx⟩ := structUnpack_total (d := .big) (f := .H) (raw := slice (0xff :: 0xff :: c :: d :: l) 2 4)
          (by simp [slice, IntFmt.size])
        exact ⟨dict.getTemplateByPair .low x.toNat, by simp only [decodeHeader, decodeNum, hf, ok_bind, hx]⟩
    · exact header_medium hb _
  · exact header_high ha _

/-- Four expanded bytes, or a complete shorter prefix, are there as soon as five bytes were sent. -/
theorem header_expanded {dict : TemplateDict} (raw rest : Bytes) (h : 5 ≤ raw.length + rest.length) :
    ∃ r, decodeHeader dict ((raw ++ zeroCodeExpand rest).take 6) = .ok r := by
  have long : ∀ S : Bytes, 4 ≤ S.length → ∃ r, decodeHeader dict (S.take 6) = .ok r := by
    intro S hS
    match S, hS with
    | a :: b :: c :: d :: l, _ => exact header_long a b c d _
  match raw, h with
  | [], h =>
    match rest, h with
    | c0 :: rest', h =>
      by_cases h0 : c0 = 0
      · subst h0
        obtain ⟨X, hX⟩ := expand_zero rest'
        rw [hX]; exact header_high (by decide) _
      · rw [expand_nonzero h0]
        by_cases hf : c0 = 0xff
        · subst hf
          match rest', h with
          | c1 :: rest'', h =>
            by_cases h1 : c1 = 0
            · subst h1
              obtain ⟨X, hX⟩ := expand_zero rest''
              rw [hX]; exact header_medium (by decide) _
            · rw [expand_nonzero h1]
              by_cases hf1 : c1 = 0xff
              · apply long
                have := expand_length rest''
                simp at *; omega
              · exact header_medium hf1 _
          | [], h => simp at h
        · exact header_high hf _
    | [], h => simp at h
  | [a], h =>
    by_cases ha : a = 0xff
    · subst ha
      match rest, h with
      | c1 :: rest'', h =>
        by_cases h1 : c1 = 0
        · subst h1
          obtain ⟨X, hX⟩ := expand_zero rest''
          rw [hX]; exact header_medium (by decide) _
        · rw [expand_nonzero h1]
          by_cases hf1 : c1 = 0xff
          · apply long
            have := expand_length rest''
            simp at *; omega
          · exact header_medium hf1 _
      | [], h => simp at h
    · exact header_high ha _
  | [a, b], h =>
    apply long
    have := expand_length rest
    simp at *; omega
  | [a, b, c], h =>
    apply long
    have := expand_length rest
    simp at *; omega
  | a :: b :: c :: d :: l, h => exact header_long a b c d _

end Pyogp
