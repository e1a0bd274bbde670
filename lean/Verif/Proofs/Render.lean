import Verif.Spec.Render
import Verif.Proofs.Dict

/-! # Rendering messages as text -/

namespace Pyogp
open Spec

theorem hasHigh_iff (b : Bytes) : hasHigh b = true ↔ ∃ x ∈ b, 128 ≤ x.toNat := by
  unfold hasHigh
  rw [List.any_eq_true]
  constructor
  · rintro ⟨x, h1, h2⟩; exact ⟨x, h1, by simpa [UInt8.le_iff_toNat_le] using h2⟩
  · rintro ⟨x, h1, h2⟩; exact ⟨x, h1, by simpa [UInt8.le_iff_toNat_le] using h2⟩

theorem VarData.render_untyped {v : VarData} (h : v.varType = none) :
    (∃ u, v.data = .unicode u ∧ hasHigh u = true) ∧ v.render = .error .valueError ∨
    (¬ ∃ u, v.data = .unicode u ∧ hasHigh u = true) ∧ ∃ hi, v.render = .ok ⟨false, hi⟩ := by
  unfold VarData.render
  rw [h]
  simp only
  cases hd : v.data <;> simp
  split <;> simp_all

theorem Text.append_str (t s : Text) (ht : t.unicode = false) (hs : s.unicode = false) : t.append s = .ok ⟨false, t.high || s.high⟩ := by
  unfold Text.append; simp [ht, hs]

/-- One block. -/
theorem BlockData.render_untyped (b : BlockData) : ∀ (ns : List String) (t : Text), t.unicode = false →
    (∀ n ∈ ns, ∃ v, b.vars.get? n = some v ∧ v.varType = none) →
    (∃ n ∈ ns, ∃ v u, b.vars.get? n = some v ∧ v.data = .unicode u ∧ hasHigh u = true) ∧ b.render ns t = .error .valueError ∨
    (¬ ∃ n ∈ ns, ∃ v u, b.vars.get? n = some v ∧ v.data = .unicode u ∧ hasHigh u = true) ∧ ∃ t', b.render ns t = .ok t' ∧ t'.unicode = false := by
  intro ns
  induction ns with
  | nil => intro t ht _; exact .inr ⟨by simp, t, rfl, ht⟩
  | cons n ns ih =>
    intro t ht hv
    obtain ⟨v, hg, hvt⟩ := hv n List.mem_cons_self
    have hget : b.getVariable n = .ok v := by unfold BlockData.getVariable Dict.get; rw [hg]
    rcases VarData.render_untyped hvt with ⟨⟨u, hu1, hu2⟩, hr⟩ | ⟨hn, hi, hr⟩
    · left
      refine ⟨⟨n, List.mem_cons_self, v, u, hg, hu1, hu2⟩, ?_⟩
      unfold BlockData.render; simp only [hget, hr, bind, Except.bind]
    · have hstep : b.render (n :: ns) t = b.render ns ⟨false, t.high || hi⟩ := by
        conv => lhs; unfold BlockData.render
        simp only [hget, hr, bind, Except.bind, Text.append_str t ⟨false, hi⟩ ht rfl]
      rw [hstep]
      rcases ih ⟨false, t.high || hi⟩ rfl (fun k hk => hv k (List.mem_cons_of_mem _ hk)) with ⟨⟨k, hk, h⟩, he⟩ | ⟨hno, h⟩
      · exact .inl ⟨⟨k, List.mem_cons_of_mem _ hk, h⟩, he⟩
      · right
        refine ⟨?_, h⟩
        rintro ⟨k, hk, w, u, h1, h2⟩
        rcases List.mem_cons.mp hk with rfl | hk
        · rw [hg] at h1; cases h1; exact hn ⟨u, h2⟩
        · exact hno ⟨k, hk, w, u, h1, h2⟩

/-- Some variable of some of these blocks is not ASCII. -/
def NonAsciiIn (bs : List BlockData) : Prop :=
  ∃ b ∈ bs, ∃ n ∈ b.varList, ∃ v u, b.vars.get? n = some v ∧ v.data = .unicode u ∧ hasHigh u = true

theorem renderBlocks_untyped : ∀ (bs : List BlockData) (t : Text), t.unicode = false →
    (∀ b ∈ bs, ∀ n ∈ b.varList, ∃ v, b.vars.get? n = some v ∧ v.varType = none) →
    NonAsciiIn bs ∧ renderBlocks bs t = .error .valueError ∨
    ¬ NonAsciiIn bs ∧ ∃ t', renderBlocks bs t = .ok t' ∧ t'.unicode = false := by
  intro bs
  induction bs with
  | nil => intro t ht _; exact .inr ⟨by simp [NonAsciiIn], t, rfl, ht⟩
  | cons b bs ih =>
    intro t ht hv
    rcases b.render_untyped b.varList t ht (hv b List.mem_cons_self) with ⟨h, he⟩ | ⟨hn, t', he, ht'⟩
    · left
      refine ⟨⟨b, List.mem_cons_self, h⟩, ?_⟩
      unfold renderBlocks; simp only [he, bind, Except.bind]
    · have hstep : renderBlocks (b :: bs) t = renderBlocks bs t' := by
        conv => lhs; unfold renderBlocks
        simp only [he, bind, Except.bind]
      rw [hstep]
      rcases ih t' ht' (fun k hk => hv k (List.mem_cons_of_mem _ hk)) with ⟨⟨k, hk, h⟩, he⟩ | ⟨hno, h⟩
      · exact .inl ⟨⟨k, List.mem_cons_of_mem _ hk, h⟩, he⟩
      · right
        refine ⟨?_, h⟩
        rintro ⟨k, hk, h1⟩
        rcases List.mem_cons.mp hk with rfl | hk
        · exact hn h1
        · exact hno ⟨k, hk, h1⟩

theorem renderDict_untyped : ∀ (d : Dict String (List BlockData)) (t : Text), t.unicode = false →
    (∀ p ∈ d, ∀ b ∈ p.2, ∀ n ∈ b.varList, ∃ v, b.vars.get? n = some v ∧ v.varType = none) →
    (∃ p ∈ d, NonAsciiIn p.2) ∧ renderDict d t = .error .valueError ∨
    (¬ ∃ p ∈ d, NonAsciiIn p.2) ∧ ∃ t', renderDict d t = .ok t' ∧ t'.unicode = false := by
  intro d
  induction d with
  | nil => intro t ht _; exact .inr ⟨by simp, t, rfl, ht⟩
  | cons p d ih =>
    obtain ⟨k, bs⟩ := p
    intro t ht hv
    rcases renderBlocks_untyped bs t ht (hv (k, bs) List.mem_cons_self) with ⟨h, he⟩ | ⟨hn, t', he, ht'⟩
    · left
      refine ⟨⟨(k, bs), List.mem_cons_self, h⟩, ?_⟩
      unfold renderDict; simp only [he, bind, Except.bind]
    · have hstep : renderDict ((k, bs) :: d) t = renderDict d t' := by
        conv => lhs; unfold renderDict
        simp only [he, bind, Except.bind]
      rw [hstep]
      rcases ih t' ht' (fun k hk => hv k (List.mem_cons_of_mem _ hk)) with ⟨⟨k, hk, h⟩, he⟩ | ⟨hno, h⟩
      · exact .inl ⟨⟨k, List.mem_cons_of_mem _ hk, h⟩, he⟩
      · right
        refine ⟨?_, h⟩
        rintro ⟨q, hq, h1⟩
        rcases List.mem_cons.mp hq with rfl | hq
        · exact hn h1
        · exact hno ⟨q, hq, h1⟩

theorem nonAscii_iff (m : Message) : HasNonAsciiText m ↔ ∃ p ∈ m.blocks, NonAsciiIn p.2 := by
  unfold HasNonAsciiText NonAsciiIn
  constructor
  · rintro ⟨p, hp, b, hb, n, hn, v, u, x, h1, h2, h3, h4⟩
    exact ⟨p, hp, b, hb, n, hn, v, u, h1, h2, (hasHigh_iff u).mpr ⟨x, h3, h4⟩⟩
  · rintro ⟨p, hp, b, hb, n, hn, v, u, h1, h2, h3⟩
    obtain ⟨x, h4, h5⟩ := (hasHigh_iff u).mp h3
    exact ⟨p, hp, b, hb, n, hn, v, u, x, h1, h2, h4, h5⟩

/-- A message built from blocks renders exactly if its texts are ASCII; otherwise a `ValueError`. -/
theorem Message.render_untyped {m : Message} (h : BuiltFromBlocks m) :
    HasNonAsciiText m ∧ m.render = .error .valueError ∨ ¬ HasNonAsciiText m ∧ ∃ t, m.render = .ok t := by
  rw [nonAscii_iff]
  rcases renderDict_untyped m.blocks {} rfl h with h | ⟨h1, t, h2, _⟩
  · exact .inl h
  · exact .inr ⟨h1, t, h2⟩

end Pyogp
