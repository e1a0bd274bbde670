import Verif.Spec.Printing
import Verif.Proofs.Util

namespace Pyogp
open Spec

/-- Nothing in a piece of text that is not ASCII. -/
def PStr.AsciiP : PStr → Prop
  | .bytes b => ∀ x ∈ b, x < 128
  | .uni cs => ∀ c ∈ cs, c.toNat < 128

/-- A piece of ASCII text as bytes. -/
def PStr.out : PStr → Bytes
  | .bytes b => b
  | .uni cs => cs.map (fun c => UInt8.ofNat c.toNat)

theorem lit_append (s t : String) : lit (s ++ t) = lit s ++ lit t := by simp [lit]

theorem lit_small {s : String} (h : ∀ c ∈ s.toList, c.toNat < 128) : ∀ x ∈ lit s, x < 128 := by
  intro x hx
  simp only [lit, List.mem_map] at hx
  obtain ⟨c, hc, rfl⟩ := hx
  have := h c hc
  rw [UInt8.lt_iff_toNat_lt, UInt8.toNat_ofNat']
  simp only [UInt8.reduceToNat]
  omega

theorem toString_nat_small (n : Nat) : ∀ c ∈ (toString n).toList, c.toNat < 128 := by
  intro c hc
  rw [Nat.toString_eq_repr, Nat.toList_repr] at hc
  have := Nat.isDigit_of_mem_toDigits (by decide) (by decide) hc
  simp only [Char.isDigit, Bool.and_eq_true, decide_eq_true_eq] at this
  have h2 := UInt32.le_iff_toNat_le.mp this.2
  have e : (57 : UInt32).toNat = 57 := rfl
  have : c.toNat = c.val.toNat := rfl
  have h3 : c.val.toNat ≤ 57 := h2
  omega

theorem toString_int_small (i : Int) : ∀ c ∈ (toString i).toList, c.toNat < 128 := by
  cases i with
  | ofNat n => exact toString_nat_small n
  | negSucc n =>
    intro c hc
    have : toString (Int.negSucc n) = "-" ++ toString (n + 1) := rfl
    rw [this, String.toList_append, List.mem_append] at hc
    rcases hc with hc | hc
    · have : c = '-' := by simpa using hc
      subst this; decide
    · exact toString_nat_small _ c hc

theorem shown_out (v : Val) : v.shown.out = bytesOf v := by
  cases v with
  | type n => simp [Val.shown, PStr.out, bytesOf, lit_append]
  | _ => rfl

theorem shown_isUni (v : Val) : v.shown.isUni = true ↔ Unicode v := by
  cases v <;> simp [Val.shown, PStr.isUni, Unicode]

theorem shown_ascii {v : Val} (h : Ascii v) : v.shown.AsciiP := by
  cases v with
  | bytes b => exact h
  | uni cs => exact h
  | int i => exact lit_small (toString_int_small i)
  | none => exact lit_small (by decide)
  | type t => cases t <;> exact lit_small (s := "<type '" ++ _ ++ "'>") (by decide +kernel)

theorem ascii_shown (v : Val) : v.shown.AsciiP ↔ Ascii v :=
  ⟨fun h => by
    cases v with
    | bytes b => exact h
    | uni cs => exact h
    | _ => exact trivial, shown_ascii⟩

theorem char_small {n : Nat} (h : n < 128) : (Char.ofNat n).toNat = n := by
  unfold Char.ofNat
  rw [dif_pos (by left; omega)]
  rfl

theorem decode_ok {p : PStr} (h : p.AsciiP) : ∃ cs, p.decode = .ok cs ∧ (∀ c ∈ cs, c.toNat < 128) ∧ cs.map (fun c => UInt8.ofNat c.toNat) = p.out := by
  cases p with
  | uni cs => exact ⟨cs, rfl, h, rfl⟩
  | bytes b =>
    have hb : b.all (· < 128) = true := by rw [List.all_eq_true]; intro x hx; exact decide_eq_true (h x hx)
    refine ⟨b.map (fun x => Char.ofNat x.toNat), by simp only [PStr.decode]; rw [if_pos hb], ?_, ?_⟩
    · intro c hc
      rw [List.mem_map] at hc
      obtain ⟨x, hx, rfl⟩ := hc
      have h1 := UInt8.lt_iff_toNat_lt.mp (h x hx)
      have h2 : x.toNat < 128 := h1
      have : (Char.ofNat x.toNat).toNat = x.toNat := char_small h2
      rw [this]; exact h2
    · rw [List.map_map]
      show _ = b
      conv => rhs; rw [← List.map_id b]
      apply List.map_congr_left
      intro x hx
      have h2 : x.toNat < 128 := UInt8.lt_iff_toNat_lt.mp (h x hx)
      have : (Char.ofNat x.toNat).toNat = x.toNat := char_small h2
      simp only [Function.comp, this, id]
      exact UInt8.ofNat_toNat

theorem decode_uni_of {p : PStr} {cs : List Char} (h : p.decode = .ok cs) (hs : ∀ c ∈ cs, c.toNat < 128) : p.AsciiP := by
  cases p with
  | uni ds => cases h; exact hs
  | bytes b =>
    simp only [PStr.decode] at h
    split at h
    · rename_i hb
      intro x hx
      have := List.all_eq_true.mp hb x hx
      exact of_decide_eq_true this
    · cases h

theorem decode_err {p : PStr} {e : Exc} (h : p.decode = .error e) : e = .valueError := by
  cases p with
  | uni cs => cases h
  | bytes b =>
    simp only [PStr.decode] at h
    split at h
    · cases h
    · cases h; rfl

/-- All pieces are ASCII, or one of them cannot be decoded or is not ASCII after decoding. -/
theorem decode_all : ∀ (ps : List PStr),
    ((∀ p ∈ ps, p.AsciiP) ∧ ∃ l, ps.mapM PStr.decode = .ok l ∧ (∀ c ∈ l.flatten, c.toNat < 128) ∧
      l.flatten.map (fun c => UInt8.ofNat c.toNat) = (ps.map PStr.out).flatten) ∨
    (¬ (∀ p ∈ ps, p.AsciiP) ∧ (ps.mapM PStr.decode = .error .valueError ∨ ∃ l, ps.mapM PStr.decode = .ok l ∧ ∃ c ∈ l.flatten, ¬ c.toNat < 128))
  | [] => .inl ⟨by simp, [], rfl, by simp, rfl⟩
  | p :: ps => by
    simp only [List.mapM_cons]
    by_cases hp : p.AsciiP
    · obtain ⟨cs, h1, h2, h3⟩ := decode_ok hp
      rw [h1]
      rcases decode_all ps with ⟨ha, l, k1, k2, k3⟩ | ⟨ha, k⟩
      · refine .inl ⟨by intro q hq; exact (List.mem_cons.mp hq).elim (fun h => h ▸ hp) (ha q), cs :: l, by rw [k1]; rfl, ?_, ?_⟩
        · intro c hc
          rw [List.flatten_cons, List.mem_append] at hc
          rcases hc with hc | hc
          · exact h2 c hc
          · exact k2 c hc
        · rw [List.flatten_cons, List.map_append, h3, k3]; rfl
      · refine .inr ⟨fun h => ha (fun q hq => h q (List.mem_cons_of_mem _ hq)), ?_⟩
        rcases k with k | ⟨l, k1, c, hc, hcn⟩
        · left; rw [k]; rfl
        · right; exact ⟨cs :: l, by rw [k1]; rfl, c, by rw [List.flatten_cons]; exact List.mem_append_right _ hc, hcn⟩
    · refine .inr ⟨fun h => hp (h p List.mem_cons_self), ?_⟩
      cases hd : p.decode with
      | error e => left; rw [decode_err hd]; rfl
      | ok cs =>
        have hx : ∃ c ∈ cs, ¬ c.toNat < 128 := by
          apply Classical.byContradiction
          intro hn
          exact hp (decode_uni_of hd (fun c hc => Classical.byContradiction (fun h => hn ⟨c, hc, h⟩)))
        obtain ⟨c, hc, hcn⟩ := hx
        rcases decode_all ps with ⟨_, l, k1, _⟩ | ⟨_, k | ⟨l, k1, _⟩⟩
        · right; exact ⟨cs :: l, by rw [k1]; rfl, c, by rw [List.flatten_cons]; exact List.mem_append_left _ hc, hcn⟩
        · left; rw [k]; rfl
        · right; exact ⟨cs :: l, by rw [k1]; rfl, c, by rw [List.flatten_cons]; exact List.mem_append_left _ hc, hcn⟩

/-- `''.join` and what `str` makes of it. -/
theorem join_returned (ps : List PStr) :
    (((∀ p ∈ ps, p.isUni = false) ∨ ∀ p ∈ ps, p.AsciiP) → (joinText ps >>= fun p => returned p.val) = .ok (ps.map PStr.out).flatten) ∧
    (¬ ((∀ p ∈ ps, p.isUni = false) ∨ ∀ p ∈ ps, p.AsciiP) → (joinText ps >>= fun p => returned p.val) = .error .valueError) := by
  unfold joinText
  by_cases hu : ps.any PStr.isUni = true
  · have hu' : ¬ ∀ p ∈ ps, p.isUni = false := by
      intro h
      obtain ⟨p, hp, hpu⟩ := List.any_eq_true.mp hu
      rw [h p hp] at hpu; cases hpu
    rw [if_pos hu]
    rcases decode_all ps with ⟨ha, l, k1, k2, k3⟩ | ⟨ha, k⟩
    · refine ⟨fun _ => ?_, fun h => absurd (.inr ha) h⟩
      rw [k1]
      simp only [bind, Except.bind, PStr.val, returned]
      rw [if_pos (by rw [List.all_eq_true]; intro c hc; exact decide_eq_true (k2 c hc)), k3]
    · refine ⟨fun h => ?_, fun _ => ?_⟩
      · rcases h with h | h
        · exact absurd h hu'
        · exact absurd h ha
      · rcases k with k | ⟨l, k1, c, hc, hcn⟩
        · rw [k]; rfl
        · rw [k1]
          simp only [bind, Except.bind, PStr.val, returned]
          rw [if_neg]
          intro h
          exact hcn (of_decide_eq_true (List.all_eq_true.mp h c hc))
  · have hu' : ∀ p ∈ ps, p.isUni = false := by
      intro p hp
      cases hpu : p.isUni with
      | false => rfl
      | true => exact absurd (List.any_eq_true.mpr ⟨p, hp, hpu⟩) hu
    rw [if_neg hu]
    refine ⟨fun _ => ?_, fun h => absurd (.inl hu') h⟩
    simp only [bind, Except.bind, PStr.val, returned]
    congr 2
    apply List.map_congr_left
    intro p hp
    have := hu' p hp
    cases p with
    | bytes b => rfl
    | uni cs => cases this

/-- Pieces of text and values by turns. -/
def woven : List String → List Val → Bytes
  | [s], [] => lit s
  | s :: ss, v :: vs => lit s ++ bytesOf v ++ woven ss vs
  | _, _ => []

theorem litChars_eq (s : String) : litChars s.toList = .bytes (lit s) := rfl

theorem weave_eq : ∀ (ss : List String) (vs : List Val), ss.length = vs.length + 1 → (∀ s ∈ ss, ∀ c ∈ s.toList, c.toNat < 128) →
    ∃ ps, weave (ss.map String.toList) vs = .ok ps ∧ (ps.map PStr.out).flatten = woven ss vs ∧
      ((∀ p ∈ ps, p.isUni = false) ↔ ∀ v ∈ vs, ¬ Unicode v) ∧ ((∀ p ∈ ps, p.AsciiP) ↔ ∀ v ∈ vs, Ascii v)
  | [s], [], _, ha => by
    refine ⟨[litChars s.toList], rfl, by simp [woven, PStr.out, litChars_eq], ?_, ?_⟩
    · simp [litChars_eq, PStr.isUni]
    · simp only [List.mem_singleton, forall_eq, List.not_mem_nil, false_implies, implies_true, iff_true, litChars_eq]
      exact lit_small (ha s (by simp))
  | s :: ss, v :: vs, hl, ha => by
    obtain ⟨ps, h1, h2, h3, h4⟩ := weave_eq ss vs (by simpa using hl) (fun t ht => ha t (List.mem_cons_of_mem _ ht))
    refine ⟨litChars s.toList :: v.shown :: ps, ?_, ?_, ?_, ?_⟩
    · rw [List.map_cons]
      cases ss with
      | nil => simp at hl
      | cons s' ss => simp only [weave, h1, bind, Except.bind]
    · rw [List.map_cons, List.map_cons, List.flatten_cons, List.flatten_cons, h2, shown_out, litChars_eq, woven, List.append_assoc]; rfl
    · simp only [List.mem_cons, forall_eq_or_imp, h3]
      have e : (litChars s.toList).isUni = false := rfl
      rw [← shown_isUni, e]; simp
    · simp only [List.mem_cons, forall_eq_or_imp, h4, ascii_shown]
      constructor
      · exact fun h => h.2
      · exact fun h => ⟨lit_small (ha s (by simp)), h⟩
  | [], _, hl, _ => by simp at hl
  | _ :: _ :: _, [], hl, _ => by simp at hl

/-- `fmt % args`, and what `str` makes of it. -/
theorem strPercent_eq {fmt : String} {ss : List String} {args : List Val} (h : formatPieces fmt.toList = ss.map String.toList)
    (hl : ss.length = args.length + 1) (ha : ∀ s ∈ ss, ∀ c ∈ s.toList, c.toNat < 128) :
    (Mixable args → strPercent fmt args = .ok (woven ss args)) ∧ (¬ Mixable args → strPercent fmt args = .error .valueError) := by
  obtain ⟨ps, h1, h2, h3, h4⟩ := weave_eq ss args hl ha
  have h5 := join_returned ps
  rw [h2, h3, h4] at h5
  have e : strPercent fmt args = (joinText ps >>= fun p => returned p.val) := by
    unfold strPercent percent
    rw [h, h1]
    rfl
  rw [e]
  exact h5

end Pyogp
