import Verif.Spec.SerializeErrors
import Verif.Proofs.Types

namespace Pyogp
open Spec

/-! ## Without the arguments, it is `serialize` -/

def forget {α : Type} : PyL α → Py α
  | .ok a => .ok a
  | .error r => .error r.exc

@[simp] theorem forget_about {α : Type} (l : Option String) (x : Py α) : forget (about l x) = x := by cases x <;> rfl
@[simp] theorem forget_ok {α : Type} (a : α) : forget (.ok a : PyL α) = .ok a := rfl
@[simp] theorem forget_error {α : Type} (r : Raised) : forget (.error r : PyL α) = .error r.exc := rfl

theorem forget_bind {α β : Type} (x : PyL α) (f : α → PyL β) : forget (x >>= f) = forget x >>= fun a => forget (f a) := by cases x <;> rfl

theorem py_bind_congr {α β : Type} (x : Py α) (f g : α → Py β) (h : ∀ a, f a = g a) : (x >>= f) = (x >>= g) := by
  have : f = g := funext h
  rw [this]

theorem packVarLen_forget (rt : Runtime) (s n : Nat) : forget (packVarLenL rt s n) = packVarLen rt s n := by
  unfold packVarLenL packVarLen
  split
  · simp
  · split
    · simp
    · split <;> simp

theorem serializeVar_forget (rt : Runtime) (b : BlockData) (v : TVar) : forget (serializeVarL rt b v) = serializeVar rt b v := by
  unfold serializeVarL serializeVar
  rw [forget_bind, forget_about]
  congr 1; funext var
  rw [forget_bind, forget_about]
  congr 1; funext data
  split
  · rw [forget_bind, packVarLen_forget]; rfl
  · rfl

theorem serializeVars_forget (rt : Runtime) (b : BlockData) : ∀ vs, forget (serializeVarsL rt b vs) = serializeVars rt b vs
  | [] => rfl
  | v :: vs => by
    unfold serializeVarsL serializeVars
    rw [forget_bind, serializeVar_forget]
    congr 1; funext a
    rw [forget_bind, serializeVars_forget rt b vs]
    rfl

theorem serializeInstances_forget (rt : Runtime) (vs : List TVar) : ∀ bs, forget (serializeInstancesL rt vs bs) = serializeInstances rt vs bs
  | [] => rfl
  | b :: bs => by
    unfold serializeInstancesL serializeInstances
    rw [forget_bind, serializeVars_forget]
    congr 1; funext a
    rw [forget_bind, serializeInstances_forget rt vs bs]
    rfl

theorem buildBlock_forget (rt : Runtime) (tb : TBlock) (m : Message) : forget (buildBlockL rt tb m) = buildBlock rt tb m := by
  unfold buildBlockL buildBlock
  rw [forget_bind, forget_about]
  congr 1; funext l
  split
  · rfl
  · by_cases hv : tb.blockType = .variable
    · rw [if_pos hv, forget_bind, forget_about]
      simp only [if_pos hv]
      congr 1; funext c
      rw [forget_bind, serializeInstances_forget]
      rfl
    · rw [if_neg hv, forget_bind]
      simp only [if_neg hv]
      change (do let c ← (Except.ok [] : Py Bytes); forget _) = _
      congr 1; funext c
      rw [forget_bind, serializeInstances_forget]
      rfl

theorem buildBlocks_forget (rt : Runtime) (m : Message) : ∀ tbs, forget (buildBlocksL rt m tbs) = buildBlocks rt m tbs
  | [] => rfl
  | tb :: tbs => by
    unfold buildBlocksL buildBlocks
    rw [forget_bind, buildBlock_forget]
    congr 1; funext a
    rw [forget_bind, buildBlocks_forget rt m tbs]
    rfl

theorem serialize_forget (env : SerEnv) (m : Message) : forget (serializeL env m) = serialize env m := by
  unfold serializeL serialize
  cases env.dict.getTemplate m.name with
  | none => rfl
  | some t =>
    simp only
    rw [forget_bind, forget_about]
    congr 1; funext a
    split
    · rfl
    · rw [forget_bind, forget_about]
      refine py_bind_congr _ _ _ fun a1 => ?_
      rw [forget_bind, forget_about]
      refine py_bind_congr _ _ _ fun a2 => ?_
      rw [forget_bind, forget_about]
      refine py_bind_congr _ _ _ fun a3 => ?_
      rw [forget_bind, buildBlocks_forget]
      rfl

/-! ## The first fault -/

theorem bindL_error {α β : Type} {x : PyL α} {f : α → PyL β} {r : Raised} :
    x >>= f = .error r ↔ x = .error r ∨ ∃ a, x = .ok a ∧ f a = .error r := by
  cases x with
  | error e =>
    constructor
    · intro h
      have h' : (Except.error e : PyL β) = .error r := h
      cases h'; exact .inl rfl
    · rintro (h | ⟨_, h, _⟩)
      · cases h; rfl
      · cases h
  | ok a =>
    constructor
    · intro h; exact .inr ⟨a, rfl, h⟩
    · rintro (h | ⟨_, h, h'⟩)
      · cases h
      · cases h; exact h'

theorem about_error {α : Type} {x : Py α} {l : Option String} {r : Raised} : about l x = .error r ↔ ∃ e, x = .error e ∧ r = ⟨e, l⟩ := by
  cases x with
  | error e =>
    constructor
    · intro h; cases h; exact ⟨e, rfl, rfl⟩
    · rintro ⟨_, h, rfl⟩; cases h; rfl
  | ok a =>
    constructor
    · intro h; cases h
    · rintro ⟨_, h, _⟩; cases h

theorem about_ok {α : Type} {x : Py α} {l : Option String} {a : α} : about l x = .ok a ↔ x = .ok a := by
  cases x with
  | error e => constructor <;> (intro h; cases h)
  | ok b => exact ⟨fun h => by cases h; rfl, fun h => by cases h; rfl⟩

/-- A loop that concatenates raises what its first failing element raises. -/
theorem loop_first {α : Type} (f : α → PyL Bytes) (loop : List α → PyL Bytes) (h0 : loop [] = .ok [])
    (hs : ∀ x xs, loop (x :: xs) = (do let a ← f x; let b ← loop xs; .ok (a ++ b))) (r : Raised) :
    ∀ l, loop l = .error r ↔ First (fun x => ∃ a, f x = .ok a) (fun x => f x = .error r) l := by
  intro l
  induction l with
  | nil =>
    rw [h0]
    constructor
    · intro h; cases h
    · rintro ⟨pre, x, post, h, _⟩; cases pre <;> cases h
  | cons x xs ih =>
    rw [hs, bindL_error]
    constructor
    · rintro (h | ⟨a, h1, h2⟩)
      · exact ⟨[], x, xs, rfl, by simp, h⟩
      · rw [bindL_error] at h2
        rcases h2 with h2 | ⟨_, _, h2⟩
        · obtain ⟨pre, y, post, e, hp, hy⟩ := ih.mp h2
          refine ⟨x :: pre, y, post, by rw [e]; rfl, ?_, hy⟩
          intro z hz
          rcases List.mem_cons.mp hz with rfl | hz
          · exact ⟨a, h1⟩
          · exact hp z hz
        · cases h2
    · rintro ⟨pre, y, post, e, hp, hy⟩
      cases pre with
      | nil => cases e; exact .inl hy
      | cons z pre =>
        cases e
        obtain ⟨a, ha⟩ := hp _ List.mem_cons_self
        refine .inr ⟨a, ha, bindL_error.mpr (.inl ?_)⟩
        exact ih.mpr ⟨pre, y, post, rfl, fun z hz => hp z (List.mem_cons_of_mem _ hz), hy⟩

theorem first_congr {α : Type} {ok ok' P P' : α → Prop} (h1 : ∀ x, ok x ↔ ok' x) (h2 : ∀ x, P x ↔ P' x) (l : List α) : First ok P l ↔ First ok' P' l := by
  unfold First
  constructor
  · rintro ⟨pre, x, post, e, h, h'⟩; exact ⟨pre, x, post, e, fun y hy => (h1 y).mp (h y hy), (h2 x).mp h'⟩
  · rintro ⟨pre, x, post, e, h, h'⟩; exact ⟨pre, x, post, e, fun y hy => (h1 y).mpr (h y hy), (h2 x).mpr h'⟩

theorem loop_ok {α : Type} (f : α → PyL Bytes) (loop : List α → PyL Bytes) (h0 : loop [] = .ok [])
    (hs : ∀ x xs, loop (x :: xs) = (do let a ← f x; let b ← loop xs; .ok (a ++ b))) :
    ∀ l, (∃ a, loop l = .ok a) ↔ ∀ x ∈ l, ∃ a, f x = .ok a := by
  intro l
  induction l with
  | nil => simp [h0]
  | cons x xs ih =>
    rw [hs]
    constructor
    · rintro ⟨a, h⟩
      cases hx : f x with
      | error e => rw [hx] at h; cases h
      | ok b =>
        rw [hx] at h
        cases hl : loop xs with
        | error e => rw [hl] at h; cases h
        | ok c =>
          intro y hy
          rcases List.mem_cons.mp hy with rfl | hy
          · exact ⟨b, hx⟩
          · exact ih.mp ⟨c, hl⟩ y hy
    · intro h
      obtain ⟨b, hb⟩ := h x List.mem_cons_self
      obtain ⟨c, hc⟩ := ih.mpr (fun y hy => h y (List.mem_cons_of_mem _ hy))
      exact ⟨b ++ c, by rw [hb, hc]; rfl⟩

theorem ok_iff_no_error {α : Type} (x : PyL α) : (∃ a, x = .ok a) ↔ ∀ r, x ≠ .error r := by
  cases x with
  | ok a => exact ⟨fun _ r h => (by cases h), fun _ => ⟨a, rfl⟩⟩
  | error e => exact ⟨fun ⟨_, h⟩ => (by cases h), fun h => absurd rfl (h e)⟩

theorem getItem_iff (b : BlockData) (n : String) : (∀ x, b.getItem n ≠ .ok x) ↔ b.getVariable n = .error .keyError := by
  unfold BlockData.getItem BlockData.getVariable Dict.get
  cases b.vars.get? n with
  | none => exact ⟨fun _ => rfl, fun _ x h => by cases h⟩
  | some v => exact ⟨fun h => absurd rfl (h v.data), fun h => by cases h⟩

theorem getItem_of_variable (b : BlockData) (n : String) (v : VarData) (h : b.getVariable n = .ok v) : b.getItem n = .ok v.data := by
  unfold BlockData.getItem; rw [h]; rfl

theorem getVariable_cases (b : BlockData) (n : String) : b.getVariable n = .error .keyError ∨ ∃ v, b.getVariable n = .ok v := by
  unfold BlockData.getVariable Dict.get
  cases b.vars.get? n with
  | none => exact .inl rfl
  | some v => exact .inr ⟨v, rfl⟩

theorem packVarLenL_iff (rt : Runtime) (s n : Nat) (r : Raised) : packVarLenL rt s n = .error r ↔
    (lenType s = none ∧ r = ⟨.messageSerialization, some "variable size"⟩) ∨
    ∃ ty e, lenType s = some ty ∧ packData rt (.num (.int n)) ty = .error e ∧ r = ⟨e, none⟩ := by
  unfold packVarLenL
  by_cases h1 : s = 1
  · subst h1; simp [lenType, about_error]
  · by_cases h2 : s = 2
    · subst h2; simp [lenType, about_error]
    · by_cases h4 : s = 4
      · subst h4; simp [lenType, about_error]
      · have : lenType s = none := by
          unfold lenType; split <;> first | rfl | omega
        rw [if_neg h1, if_neg h2, if_neg h4, this]
        constructor
        · intro h; cases h; exact .inl ⟨rfl, rfl⟩
        · rintro (⟨_, rfl⟩ | ⟨_, _, h, _⟩)
          · rfl
          · cases h

theorem serializeVarL_iff (rt : Runtime) (b : BlockData) (v : TVar) (e : Exc) (l : Option String) :
    serializeVarL rt b v = .error ⟨e, l⟩ ↔ VarFault rt b v e l := by
  unfold serializeVarL
  constructor
  · intro h
    rcases bindL_error.mp h with h | ⟨var, hv, h⟩
    · obtain ⟨e', h1, h2⟩ := about_error.mp h
      rcases getVariable_cases b v.name with hc | ⟨x, hc⟩
      · rw [hc] at h1; cases h1; cases h2; exact .missing ((getItem_iff b v.name).mpr hc)
      · rw [hc] at h1; cases h1
    · have hi := getItem_of_variable b v.name var (about_ok.mp hv)
      rcases bindL_error.mp h with h | ⟨data, hd, h⟩
      · obtain ⟨e', h1, h2⟩ := about_error.mp h
        cases h2; exact .value _ _ hi h1
      · have hd := about_ok.mp hd
        by_cases ht : v.type = .variable
        · rw [if_pos ht] at h
          rcases bindL_error.mp h with h | ⟨_, _, h⟩
          · rcases (packVarLenL_iff _ _ _ _).mp h with ⟨h1, h2⟩ | ⟨ty, e', h1, h2, h3⟩
            · cases h2; exact .size _ _ hi hd ht h1
            · cases h3; exact .length _ _ _ _ hi hd ht h1 h2
          · cases h
        · rw [if_neg ht] at h; cases h
  · intro h
    have hvar : ∀ x, b.getItem v.name = .ok x → ∃ var, about (some v.name) (b.getVariable v.name) = .ok var ∧ var.data = x := by
      intro x hx
      rcases getVariable_cases b v.name with hc | ⟨y, hc⟩
      · exact absurd hx ((getItem_iff b v.name).mpr hc x)
      · refine ⟨y, about_ok.mpr hc, ?_⟩
        rw [getItem_of_variable b v.name y hc] at hx
        cases hx; rfl
    cases h with
    | missing h => exact bindL_error.mpr (.inl (about_error.mpr ⟨_, (getItem_iff b v.name).mp h, rfl⟩))
    | value x e hi h =>
      obtain ⟨var, h1, rfl⟩ := hvar x hi
      exact bindL_error.mpr (.inr ⟨var, h1, bindL_error.mpr (.inl (about_error.mpr ⟨_, h, rfl⟩))⟩)
    | size x data hi hd ht hs =>
      obtain ⟨var, h1, rfl⟩ := hvar x hi
      refine bindL_error.mpr (.inr ⟨var, h1, bindL_error.mpr (.inr ⟨data, about_ok.mpr hd, ?_⟩)⟩)
      rw [if_pos ht]
      exact bindL_error.mpr (.inl ((packVarLenL_iff _ _ _ _).mpr (.inl ⟨hs, rfl⟩)))
    | length x data ty e hi hd ht hs hp =>
      obtain ⟨var, h1, rfl⟩ := hvar x hi
      refine bindL_error.mpr (.inr ⟨var, h1, bindL_error.mpr (.inr ⟨data, about_ok.mpr hd, ?_⟩)⟩)
      rw [if_pos ht]
      exact bindL_error.mpr (.inl ((packVarLenL_iff _ _ _ _).mpr (.inr ⟨ty, e, hs, hp, rfl⟩)))

theorem serializeVarL_ok (rt : Runtime) (b : BlockData) (v : TVar) : (∃ a, serializeVarL rt b v = .ok a) ↔ VarFine rt b v := by
  rw [ok_iff_no_error]
  exact ⟨fun h e l hf => h _ ((serializeVarL_iff rt b v e l).mpr hf), fun h r hr => h r.exc r.about ((serializeVarL_iff rt b v _ _).mp hr)⟩

theorem varsL_iff (rt : Runtime) (b : BlockData) (vs : List TVar) (e : Exc) (l : Option String) :
    serializeVarsL rt b vs = .error ⟨e, l⟩ ↔ First (VarFine rt b) (fun v => VarFault rt b v e l) vs :=
  (loop_first (serializeVarL rt b) (serializeVarsL rt b) rfl (fun _ _ => rfl) ⟨e, l⟩ vs).trans
    (first_congr (serializeVarL_ok rt b) (fun v => serializeVarL_iff rt b v e l) vs)

theorem varsL_ok (rt : Runtime) (b : BlockData) (vs : List TVar) : (∃ a, serializeVarsL rt b vs = .ok a) ↔ ∀ v ∈ vs, VarFine rt b v := by
  rw [loop_ok (serializeVarL rt b) (serializeVarsL rt b) rfl (fun _ _ => rfl) vs]
  exact ⟨fun h v hv => (serializeVarL_ok rt b v).mp (h v hv), fun h v hv => (serializeVarL_ok rt b v).mpr (h v hv)⟩

theorem instancesL_iff (rt : Runtime) (vs : List TVar) (bs : List BlockData) (e : Exc) (l : Option String) :
    serializeInstancesL rt vs bs = .error ⟨e, l⟩ ↔
      First (fun b => ∀ v ∈ vs, VarFine rt b v) (fun b => First (VarFine rt b) (fun v => VarFault rt b v e l) vs) bs :=
  (loop_first (fun b => serializeVarsL rt b vs) (serializeInstancesL rt vs) rfl (fun _ _ => rfl) ⟨e, l⟩ bs).trans
    (first_congr (fun b => varsL_ok rt b vs) (fun b => varsL_iff rt b vs e l) bs)

theorem countPack_error (v : PyVersion) (n : Nat) (e : Exc) : structPack v .big .B n = .error e ↔ v = .v27 ∧ 255 < n ∧ e = .structError := by
  unfold structPack
  simp only
  have hb : (IntFmt.B.lo ≤ (n : Int) ∧ (n : Int) < IntFmt.B.hi) ↔ n < 256 := by
    have h1 : IntFmt.B.lo = 0 := by decide
    have h2 : IntFmt.B.hi = 256 := by decide
    rw [h1, h2]; omega
  by_cases h : n < 256
  · rw [if_pos (hb.mpr h)]
    constructor
    · intro h'; cases h'
    · rintro ⟨_, h', _⟩; omega
  · rw [if_neg (fun h' => h (hb.mp h'))]
    cases v with
    | v26 =>
      simp only
      rw [if_neg (by decide)]
      constructor
      · intro h'; cases h'
      · rintro ⟨h', _⟩; cases h'
    | v27 =>
      constructor
      · intro h'; cases h'; exact ⟨rfl, by omega, rfl⟩
      · rintro ⟨_, _, rfl⟩; rfl

theorem getBlock_cases (m : Message) (n : String) : (m.getBlock n = .error .keyError ∧ ∀ l, m.getBlock n ≠ .ok l) ∨ ∃ l, m.getBlock n = .ok l := by
  unfold Message.getBlock Dict.get
  cases m.blocks.get? n with
  | none => exact .inl ⟨rfl, fun l h => by cases h⟩
  | some v => exact .inr ⟨v, rfl⟩

theorem buildBlockL_iff (rt : Runtime) (tb : TBlock) (m : Message) (e : Exc) (w : Option String) :
    buildBlockL rt tb m = .error ⟨e, w⟩ ↔ BlockFault rt m tb e w := by
  unfold buildBlockL
  rcases getBlock_cases m tb.name with ⟨h1, h2⟩ | ⟨l, hl⟩
  · rw [h1]
    constructor
    · intro h; cases h; exact .missing h2
    · intro h
      cases h with
      | missing _ => rfl
      | count l hl => exact absurd hl (h2 l)
      | many l hl => exact absurd hl (h2 l)
      | var l e w hl => exact absurd hl (h2 l)
  · rw [hl]
    have hl' : ∀ l', m.getBlock tb.name = .ok l' → l' = l := fun l' h => by rw [hl] at h; cases h; rfl
    change (if tb.blockType = .multiple ∧ tb.number ≠ l.length then (.error ⟨.messageSerialization, some tb.name⟩ : PyL Bytes)
      else do
        let count ← (if tb.blockType = .variable then about none (structPack rt.ver .big .B l.length) else .ok [] : PyL Bytes)
        let body ← serializeInstancesL rt tb.vars l
        .ok (count ++ body)) = _ ↔ _
    by_cases hm : tb.blockType = .multiple ∧ tb.number ≠ l.length
    · rw [if_pos hm]
      constructor
      · intro h; cases h; exact .count l hl hm.1 (fun h => hm.2 h.symm)
      · intro h
        cases h with
        | missing h => exact absurd hl (h l)
        | count _ _ _ _ => rfl
        | many _ _ h => rw [hm.1] at h; cases h
        | var l' _ _ h1 h2 => have := hl' l' h1; subst this; exact absurd (h2 hm.1).symm hm.2
    · rw [if_neg hm]
      by_cases hv : tb.blockType = .variable
      · rw [if_pos hv]
        constructor
        · intro h
          rcases bindL_error.mp h with h | ⟨c, hc, h⟩
          · obtain ⟨e', h1, h2⟩ := about_error.mp h
            obtain ⟨h3, h4, h5⟩ := (countPack_error _ _ _).mp h1
            cases h2; subst h5
            exact .many l hl hv h3 h4
          · rcases bindL_error.mp h with h | ⟨_, _, h⟩
            · refine .var l e w hl (fun h' => by rw [hv] at h'; cases h') ?_ ((instancesL_iff rt tb.vars l e w).mp h)
              intro _ h27
              rcases Nat.lt_or_ge 255 l.length with h3 | h3
              · rw [about_ok] at hc
                rw [(countPack_error rt.ver l.length .structError).mpr ⟨h27, h3, rfl⟩] at hc; cases hc
              · exact h3
            · cases h
        · intro h
          cases h with
          | missing h => exact absurd hl (h l)
          | count _ _ h _ => rw [hv] at h; cases h
          | many l' h1 _ h3 h4 =>
            have := hl' l' h1; subst this
            exact bindL_error.mpr (.inl (about_error.mpr ⟨_, (countPack_error _ _ _).mpr ⟨h3, h4, rfl⟩, rfl⟩))
          | var l' _ _ h1 _ h3 h4 =>
            have := hl' l' h1; subst this
            refine bindL_error.mpr (.inr ?_)
            cases hp : structPack rt.ver .big .B l'.length with
            | ok c => exact ⟨c, rfl, bindL_error.mpr (.inl ((instancesL_iff rt tb.vars l' e w).mpr h4))⟩
            | error e' =>
              obtain ⟨g1, g2, _⟩ := (countPack_error _ _ _).mp hp
              have := h3 hv g1
              omega
      · rw [if_neg hv]
        constructor
        · intro h
          rcases bindL_error.mp h with h | ⟨c, hc, h⟩
          · cases h
          · rcases bindL_error.mp h with h | ⟨_, _, h⟩
            · refine .var l e w hl ?_ (fun h' => absurd h' hv) ((instancesL_iff rt tb.vars l e w).mp h)
              intro hmul
              by_cases hq : tb.number = l.length
              · exact hq.symm
              · exact absurd ⟨hmul, hq⟩ hm
            · cases h
        · intro h
          cases h with
          | missing h => exact absurd hl (h l)
          | count l' h1 h2 h3 =>
            have := hl' l' h1; subst this
            exact absurd ⟨h2, fun h => h3 h.symm⟩ hm
          | many _ _ h => exact absurd h hv
          | var l' _ _ h1 _ h3 h4 =>
            have := hl' l' h1; subst this
            exact bindL_error.mpr (.inr ⟨[], rfl, bindL_error.mpr (.inl ((instancesL_iff rt tb.vars l' e w).mpr h4))⟩)

theorem buildBlockL_ok (rt : Runtime) (m : Message) (tb : TBlock) : (∃ a, buildBlockL rt tb m = .ok a) ↔ BlockFine rt m tb := by
  rw [ok_iff_no_error]
  exact ⟨fun h e l hf => h _ ((buildBlockL_iff rt tb m e l).mpr hf), fun h r hr => h r.exc r.about ((buildBlockL_iff rt tb m _ _).mp hr)⟩

theorem blocksL_iff (rt : Runtime) (m : Message) (tbs : List TBlock) (e : Exc) (l : Option String) :
    buildBlocksL rt m tbs = .error ⟨e, l⟩ ↔ First (BlockFine rt m) (fun tb => BlockFault rt m tb e l) tbs :=
  (loop_first (fun tb => buildBlockL rt tb m) (buildBlocksL rt m) rfl (fun _ _ => rfl) ⟨e, l⟩ tbs).trans
    (first_congr (buildBlockL_ok rt m) (fun tb => buildBlockL_iff rt tb m e l) tbs)

theorem validate_error (x : DotXml) (n : String) (e : Exc) : validateUdpMsg x n = .error e ↔ e = .keyError ∧ x.get? n = some none := by
  unfold validateUdpMsg
  cases h : x.get? n with
  | none => simp
  | some o =>
    cases o with
    | none => constructor
              · intro h; cases h; exact ⟨rfl, rfl⟩
              · rintro ⟨rfl, _⟩; rfl
    | some fl =>
      simp only
      split
      · constructor
        · intro h; cases h
        · rintro ⟨_, h⟩; cases h
      · constructor
        · intro h; cases h
        · rintro ⟨_, h⟩; cases h

theorem zero_packs (rt : Runtime) : ∃ b, packData rt (.num (.int 0)) .u8 = .ok b := by
  cases rt with
  | mk v q => cases v <;> exact ⟨_, rfl⟩

theorem serializeL_iff (env : SerEnv) (m : Message) (e : Exc) (l : Option String) :
    serializeL env m = .error ⟨e, l⟩ ↔ MessageFault env m e l := by
  unfold serializeL
  cases ht : env.dict.getTemplate m.name with
  | none =>
    constructor
    · intro h; cases h; exact .name ht
    · intro h
      cases h with
      | name _ => rfl
      | xml t h => rw [ht] at h; cases h
      | flags t _ h => rw [ht] at h; cases h
      | id t _ _ h => rw [ht] at h; cases h
      | block t _ _ _ _ h => rw [ht] at h; cases h
  | some t =>
    have ht' : ∀ t', env.dict.getTemplate m.name = some t' → t' = t := fun t' h => by rw [ht] at h; cases h; rfl
    obtain ⟨b0, hb0⟩ := zero_packs env.rt
    constructor
    · intro h
      rcases bindL_error.mp h with h | ⟨a, ha, h⟩
      · obtain ⟨e', h1, h2⟩ := about_error.mp h
        obtain ⟨h3, h4⟩ := (validate_error _ _ _).mp h1
        cases h2; subst h3
        exact .xml t ht h4
      · have ha := about_ok.mp ha
        cases a with
        | false => cases h
        | true =>
          rw [if_neg (by simp)] at h
          rcases bindL_error.mp h with h | ⟨b, hb, h⟩
          · obtain ⟨e', h1, h2⟩ := about_error.mp h
            cases h2; exact .flags t _ ht ha h1
          · have hb := about_ok.mp hb
            rcases bindL_error.mp h with h | ⟨b', hb', h⟩
            · obtain ⟨e', h1, h2⟩ := about_error.mp h
              cases h2; exact .id t _ _ ht ha hb h1
            · have hb' := about_ok.mp hb'
              rcases bindL_error.mp h with h | ⟨_, _, h⟩
              · obtain ⟨e', h1, h2⟩ := about_error.mp h
                rw [hb0] at h1; cases h1
              · rcases bindL_error.mp h with h | ⟨_, _, h⟩
                · exact .block t _ _ _ _ ht ha hb hb' ((blocksL_iff _ _ _ _ _).mp h)
                · cases h
    · intro h
      have key : ∀ a, validateUdpMsg env.xml t.name = .ok a → about (some "flavor") (validateUdpMsg env.xml t.name) = .ok a := fun a h => about_ok.mpr h
      cases h with
      | name h => rw [ht] at h; cases h
      | xml t' h1 h2 =>
        have := ht' t' h1; subst this
        exact bindL_error.mpr (.inl (about_error.mpr ⟨_, (validate_error _ _ _).mpr ⟨rfl, h2⟩, rfl⟩))
      | flags t' _ h1 h2 h3 =>
        have := ht' t' h1; subst this
        refine bindL_error.mpr (.inr ⟨true, key true h2, ?_⟩)
        rw [if_neg (by simp)]
        exact bindL_error.mpr (.inl (about_error.mpr ⟨_, h3, rfl⟩))
      | id t' b _ h1 h2 h3 h4 =>
        have := ht' t' h1; subst this
        refine bindL_error.mpr (.inr ⟨true, key true h2, ?_⟩)
        rw [if_neg (by simp)]
        refine bindL_error.mpr (.inr ⟨b, about_ok.mpr h3, ?_⟩)
        exact bindL_error.mpr (.inl (about_error.mpr ⟨_, h4, rfl⟩))
      | block t' _ _ b b' h1 h2 h3 h4 h5 =>
        have := ht' t' h1; subst this
        refine bindL_error.mpr (.inr ⟨true, key true h2, ?_⟩)
        rw [if_neg (by simp)]
        refine bindL_error.mpr (.inr ⟨b, about_ok.mpr h3, ?_⟩)
        refine bindL_error.mpr (.inr ⟨b', about_ok.mpr h4, ?_⟩)
        refine bindL_error.mpr (.inr ⟨b0, about_ok.mpr hb0, ?_⟩)
        exact bindL_error.mpr (.inl ((blocksL_iff _ _ _ _ _).mpr h5))

theorem structPack_fits (v : PyVersion) (e : Endian) (f : IntFmt) (x : Int) (h : f.lo ≤ x ∧ x < f.hi) : ∃ b, structPack v e f x = .ok b := by
  unfold structPack
  simp only
  rw [if_pos h]
  exact ⟨_, rfl⟩

theorem u8_packs (rt : Runtime) (n : Nat) (h : n < 256) : ∃ b, packData rt (.num (.int n)) .u8 = .ok b := by
  rw [packData_int (d := .big) (f := .B) rfl]
  exact structPack_fits _ _ _ _ ⟨by have : IntFmt.B.lo = 0 := by decide
                                    omega, by have : IntFmt.B.hi = 256 := by decide
                                              omega⟩

theorem s32_packs (rt : Runtime) (n : Nat) (h : n < 2 ^ 31) : ∃ b, packData rt (.num (.int n)) .s32 (some .big) = .ok b := by
  rw [packData_int (d := .little) (f := .i) rfl]
  exact structPack_fits _ _ _ _ ⟨by have : IntFmt.i.lo = -2147483648 := by decide
                                    omega, by have : IntFmt.i.hi = 2147483648 := by decide
                                              omega⟩

end Pyogp
