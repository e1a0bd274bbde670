import Verif.Model.Message

/-! # Dictionary lemmas -/

namespace Pyogp
namespace Dict
variable {κ α : Type} [DecidableEq κ]

theorem get?_set (d : Dict κ α) (k k' : κ) (v : α) : (d.set k v).get? k' = if k = k' then some v else d.get? k' := by
  induction d with
  | nil => simp [set, get?]
  | cons p d ih =>
    obtain ⟨a, b⟩ := p
    simp only [set]
    split
    · rename_i h
      subst h
      simp only [get?]
      split <;> rfl
    · rename_i h
      simp only [get?]
      split
      · rename_i h2; subst h2
        rw [if_neg (fun e => h e.symm)]
      · exact ih

theorem get?_set_self (d : Dict κ α) (k : κ) (v : α) : (d.set k v).get? k = some v := by simp [get?_set]

theorem get?_set_ne (d : Dict κ α) {k k' : κ} (v : α) (h : k ≠ k') : (d.set k v).get? k' = d.get? k' := by
  simp [get?_set, h]

theorem set_ne_nil (d : Dict κ α) (k : κ) (v : α) : d.set k v ≠ [] := by
  cases d with
  | nil => simp [set]
  | cons p d => simp only [set]; split <;> simp

omit [DecidableEq κ] in
theorem keys_cons (p : κ × α) (d : Dict κ α) : Dict.keys (p :: d) = p.1 :: Dict.keys d := rfl

theorem keys_set (d : Dict κ α) (k : κ) (v : α) :
    (d.set k v).keys = if k ∈ d.keys then d.keys else d.keys ++ [k] := by
  induction d with
  | nil => simp [set, keys]
  | cons p d ih =>
    obtain ⟨a, b⟩ := p
    simp only [set]
    split
    · rename_i h; subst h; simp [keys]
    · rename_i h
      rw [keys_cons, keys_cons, ih]
      simp only [List.mem_cons]
      by_cases hk : k ∈ Dict.keys d
      · simp [hk]
      · have : ¬ (k = a ∨ k ∈ Dict.keys d) := by
          rintro (e | e)
          · exact h e.symm
          · exact hk e
        rw [if_neg hk, if_neg this]; rfl

theorem get?_eq_none_iff (d : Dict κ α) (k : κ) : d.get? k = none ↔ k ∉ d.keys := by
  induction d with
  | nil => simp [get?, keys]
  | cons p d ih =>
    obtain ⟨a, b⟩ := p
    simp only [get?, keys, List.map_cons, List.mem_cons, not_or] at *
    split
    · rename_i h; subst h; simp
    · rename_i h
      rw [ih]
      constructor
      · intro h2; exact ⟨fun e => h e.symm, h2⟩
      · intro h2; exact h2.2

theorem mem_keys_of_get? {d : Dict κ α} {k : κ} {v : α} (h : d.get? k = some v) : k ∈ d.keys := by
  rcases Decidable.em (k ∈ d.keys) with hk | hk
  · exact hk
  · rw [(get?_eq_none_iff d k).mpr hk] at h; cases h

theorem get?_eq_some_of_mem {d : Dict κ α} (hn : d.keys.Nodup) {k : κ} {v : α} (h : (k, v) ∈ d) : d.get? k = some v := by
  induction d with
  | nil => cases h
  | cons p d ih =>
    obtain ⟨a, b⟩ := p
    simp only [keys, List.map_cons, List.nodup_cons] at hn
    simp only [List.mem_cons, Prod.mk.injEq] at h
    simp only [get?]
    rcases h with ⟨rfl, rfl⟩ | h
    · simp
    · have : a ≠ k := by
        rintro rfl
        exact hn.1 (List.mem_map.mpr ⟨_, h, rfl⟩)
      rw [if_neg this]
      exact ih hn.2 h

theorem mem_of_get? {d : Dict κ α} {k : κ} {v : α} (h : d.get? k = some v) : (k, v) ∈ d := by
  induction d with
  | nil => cases h
  | cons p d ih =>
    obtain ⟨a, b⟩ := p
    simp only [get?] at h
    split at h
    · rename_i e; subst e; cases h; exact List.mem_cons_self
    · exact List.mem_cons_of_mem _ (ih h)

theorem get?_del (d : Dict κ α) (k k' : κ) : (d.del k).get? k' = if k' = k then none else d.get? k' := by
  induction d with
  | nil => simp [del, get?]
  | cons p d ih =>
    obtain ⟨a, b⟩ := p
    simp only [del, List.filter_cons] at *
    by_cases ha : a = k
    · subst ha
      simp only [ne_eq, not_true, decide_false, Bool.false_eq_true, if_false, get?]
      rw [ih]
      by_cases hk : k' = a
      · simp [hk]
      · simp [hk, Ne.symm hk]
    · simp only [ne_eq, ha, not_false_eq_true, decide_true, if_true, get?]
      rw [ih]
      by_cases hk : a = k'
      · subst hk; simp [ha]
      · simp [hk]

end Dict

/-! ## Messages -/

theorem get?_addBlock (d : Dict String (List BlockData)) (b : BlockData) (n : String) :
    (addBlock d b).get? n = if b.name = n then some ((d.get? n).getD [] ++ [b]) else d.get? n := by
  unfold addBlock
  split
  · rename_i h
    rw [Dict.get?_set]
    split
    · rename_i e; subst e; simp [h]
    · rfl
  · rename_i l h
    rw [Dict.get?_set]
    split
    · rename_i e; subst e; simp [h]
    · rfl

theorem get?_foldl_addBlock (l : List BlockData) : ∀ (d : Dict String (List BlockData)) (n : String),
    (l.foldl addBlock d).get? n =
      if l.filter (fun b => b.name = n) = [] then d.get? n
      else some ((d.get? n).getD [] ++ l.filter (fun b => b.name = n)) := by
  induction l with
  | nil => intro d n; simp
  | cons b l ih =>
    intro d n
    rw [List.foldl_cons, ih, get?_addBlock]
    by_cases hb : b.name = n
    · simp only [hb, if_true, List.filter_cons, decide_true]
      by_cases hf : l.filter (fun b => b.name = n) = []
      · simp [hf]
      · simp [hf]
    · simp [hb]

theorem addBlock_ne_nil (d : Dict String (List BlockData)) (b : BlockData) : addBlock d b ≠ [] := by
  unfold addBlock; split <;> exact Dict.set_ne_nil _ _ _

theorem foldl_addBlock_ne_nil {l : List BlockData} : ∀ {d : Dict String (List BlockData)}, l ≠ [] ∨ d ≠ [] →
    l.foldl addBlock d ≠ [] := by
  induction l with
  | nil => intro d h; rcases h with h | h; exact absurd rfl h; exact h
  | cons b l ih => intro d _; exact ih (.inr (addBlock_ne_nil d b))

theorem addVariable_name (b : BlockData) (v : VarData) : (b.addVariable v).name = b.name := rfl

theorem foldl_addVariable_name (ds : List VarData) : ∀ b : BlockData, (ds.foldl BlockData.addVariable b).name = b.name := by
  induction ds with
  | nil => intro b; rfl
  | cons d ds ih => intro b; rw [List.foldl_cons, ih]; rfl

theorem foldl_addVariable_varList (ds : List VarData) : ∀ b : BlockData,
    (ds.foldl BlockData.addVariable b).varList = b.varList ++ ds.map (·.name) := by
  induction ds with
  | nil => intro b; simp
  | cons d ds ih => intro b; rw [List.foldl_cons, ih]; simp [BlockData.addVariable]

theorem foldl_addVariable_number (ds : List VarData) : ∀ b : BlockData,
    (ds.foldl BlockData.addVariable b).number = b.number := by
  induction ds with
  | nil => intro b; rfl
  | cons d ds ih => intro b; rw [List.foldl_cons, ih]; rfl

theorem get?_foldl_addVariable_notin {ds : List VarData} {n : String} (h : n ∉ ds.map (·.name)) : ∀ b : BlockData,
    (ds.foldl BlockData.addVariable b).vars.get? n = b.vars.get? n := by
  induction ds with
  | nil => intro b; rfl
  | cons d ds ih =>
    intro b
    simp only [List.map_cons, List.mem_cons, not_or] at h
    rw [List.foldl_cons, ih h.2]
    exact Dict.get?_set_ne _ _ (fun e => h.1 e.symm)

theorem get?_foldl_addVariable {ds : List VarData} (hn : (ds.map (·.name)).Nodup) {d : VarData} (hd : d ∈ ds) :
    ∀ b : BlockData, (ds.foldl BlockData.addVariable b).vars.get? d.name = some d := by
  induction ds with
  | nil => cases hd
  | cons e ds ih =>
    intro b
    simp only [List.map_cons, List.nodup_cons] at hn
    rw [List.foldl_cons]
    simp only [List.mem_cons] at hd
    rcases hd with rfl | hd
    · rw [get?_foldl_addVariable_notin hn.1]
      exact Dict.get?_set_self _ _ _
    · exact ih hn.2 hd _

end Pyogp
