import Verif.Model.MessageApi
import Verif.Proofs.Dict
import Verif.Spec.Message

/-! # Messages, dictionaries, builders -/

namespace Pyogp
open Spec

theorem Dict.set_set {κ α : Type} [DecidableEq κ] (d : Dict κ α) (k : κ) (a b : α) : (d.set k a).set k b = d.set k b := by
  induction d with
  | nil => simp [Dict.set]
  | cons p d ih =>
    obtain ⟨x, y⟩ := p
    by_cases h : x = k
    · subst h; simp [Dict.set]
    · simp [Dict.set, h, ih]

theorem parseBlocks_flat (args : List BlockArg) : ∀ m : Message, m.parseBlocks args = { m with blocks := (flatArgs args).foldl addBlock m.blocks } := by
  have hmany : ∀ (l : List BlockData) (m : Message), l.foldl Message.addBlock m = { m with blocks := l.foldl addBlock m.blocks } := by
    intro l
    induction l with
    | nil => intro m; rfl
    | cons b l ih => intro m; rw [List.foldl_cons, ih]; rfl
  induction args with
  | nil => intro m; rfl
  | cons a args ih =>
    intro m
    cases a with
    | one b => rw [Message.parseBlocks, ih]; rfl
    | many l => rw [Message.parseBlocks, ih, hmany, flatArgs, List.foldl_append]

/-! ## Block dictionaries -/

/-- Every entry holds instances of that name, at least one; names are not repeated. -/
structure BlocksOk (d : Dict String (List BlockData)) : Prop where
  keys : d.keys.Nodup
  names : ∀ k l, (k, l) ∈ d → l ≠ [] ∧ ∀ b ∈ l, b.name = k

theorem BlocksOk.nil : BlocksOk [] := ⟨List.nodup_nil, by intro k l h; cases h⟩

theorem mem_set {κ α : Type} [DecidableEq κ] {d : Dict κ α} {k : κ} {v : α} {p : κ × α} (h : p ∈ d.set k v) : p = (k, v) ∨ p ∈ d := by
  induction d with
  | nil => simp [Dict.set] at h; exact .inl h
  | cons q d ih =>
    obtain ⟨x, y⟩ := q
    unfold Dict.set at h
    split at h
    · rename_i hx
      rcases List.mem_cons.mp h with h | h
      · exact .inl h
      · exact .inr (List.mem_cons_of_mem _ h)
    · rcases List.mem_cons.mp h with h | h
      · rw [h]; exact .inr List.mem_cons_self
      · rcases ih h with h | h
        · exact .inl h
        · exact .inr (List.mem_cons_of_mem _ h)

theorem keys_set_nodup {κ α : Type} [DecidableEq κ] {d : Dict κ α} (h : d.keys.Nodup) (k : κ) (v : α) : (d.set k v).keys.Nodup := by
  rw [Dict.keys_set]
  split
  · exact h
  · rename_i hk
    refine List.nodup_append.mpr ⟨h, by simp, ?_⟩
    intro a ha b hb
    rw [List.mem_singleton] at hb
    subst hb
    rintro rfl
    exact hk ha

theorem BlocksOk.addBlock {d : Dict String (List BlockData)} (h : BlocksOk d) (b : BlockData) : BlocksOk (addBlock d b) := by
  unfold Pyogp.addBlock
  split
  · refine ⟨keys_set_nodup h.keys _ _, ?_⟩
    intro k l hm
    rcases mem_set hm with hm | hm
    · cases hm
      exact ⟨by simp, by intro x hx; rw [List.mem_singleton] at hx; rw [hx]⟩
    · exact h.names k l hm
  · rename_i l0 hl0
    refine ⟨keys_set_nodup h.keys _ _, ?_⟩
    intro k l hm
    rcases mem_set hm with hm | hm
    · cases hm
      refine ⟨by simp, ?_⟩
      intro x hx
      rcases List.mem_append.mp hx with hx | hx
      · exact (h.names _ _ (Dict.mem_of_get? hl0)).2 x hx
      · rw [List.mem_singleton] at hx; rw [hx]
    · exact h.names k l hm

theorem BlocksOk.foldl {l : List BlockData} : ∀ {d : Dict String (List BlockData)}, BlocksOk d → BlocksOk (l.foldl Pyogp.addBlock d) := by
  induction l with
  | nil => intro d h; exact h
  | cons b l ih => intro d h; exact ih (h.addBlock b)

theorem BlocksOk.filter {d : Dict String (List BlockData)} (h : BlocksOk d) (n : String) :
    (d.map (·.2)).flatten.filter (fun b => b.name = n) = (d.get? n).getD [] := by
  obtain ⟨hk, hn⟩ := h
  induction d with
  | nil => rfl
  | cons p d ih =>
    obtain ⟨k, l⟩ := p
    rw [Dict.keys_cons, List.nodup_cons] at hk
    have ih := ih hk.2 (fun k' l' hm => hn k' l' (List.mem_cons_of_mem _ hm))
    have hl := (hn k l List.mem_cons_self).2
    rw [List.map_cons, List.flatten_cons, List.filter_append, ih]
    by_cases hkn : k = n
    · subst hkn
      have h1 : l.filter (fun b => b.name = k) = l := List.filter_eq_self.mpr (fun b hb => by simp [hl b hb])
      have h2 : Dict.get? d k = none := (Dict.get?_eq_none_iff d k).mpr hk.1
      rw [h1, h2]
      simp [Dict.get?]
    · have h1 : l.filter (fun b => b.name = n) = [] := List.filter_eq_nil_iff.mpr (fun b hb => by simp [hl b hb, hkn])
      rw [h1, List.nil_append]
      simp [Dict.get?, hkn]

/-! ## Variables -/

/-- Every entry holds the variable of that name; names are not repeated. -/
structure VarsOk (d : Dict String VarData) : Prop where
  keys : d.keys.Nodup
  names : ∀ k v, (k, v) ∈ d → v.name = k

theorem VarsOk.set {d : Dict String VarData} (h : VarsOk d) (v : VarData) : VarsOk (d.set v.name v) := by
  refine ⟨keys_set_nodup h.keys _ _, ?_⟩
  intro k x hm
  rcases mem_set hm with hm | hm
  · cases hm; rfl
  · exact h.names k x hm

theorem blockMap_get? {b : BlockData} (h : VarsOk b.vars) (k : String) : (blockMap b).get? k = (b.vars.get? k).map (·.data) := by
  unfold blockMap
  have key : ∀ (d : Dict String VarData) (acc : VarMap), VarsOk d →
      ((Dict.values d).foldl (fun d v => d.set v.name v.data) acc).get? k = ((Dict.get? d k).map (·.data)).or (acc.get? k) := by
    intro d
    induction d with
    | nil => intro acc _; rfl
    | cons p d ih =>
      intro acc hd
      obtain ⟨x, v⟩ := p
      have hx : v.name = x := hd.names x v List.mem_cons_self
      have hk := hd.keys
      rw [Dict.keys_cons, List.nodup_cons] at hk
      have hd' : VarsOk d := ⟨hk.2, fun k' v' hm => hd.names k' v' (List.mem_cons_of_mem _ hm)⟩
      show ((Dict.values d).foldl (fun d v => d.set v.name v.data) (acc.set v.name v.data)).get? k = _
      rw [ih _ hd', Dict.get?_set, hx]
      by_cases hxk : x = k
      · subst hxk
        have h2 : Dict.get? d x = none := (Dict.get?_eq_none_iff d x).mpr hk.1
        rw [h2]
        simp [Dict.get?]
      · simp [Dict.get?, hxk]
  rw [key b.vars [] h]
  simp [Dict.get?]

theorem mk'_foldl (name : String) (kwargs : List (String × PyVal)) :
    Block.mk' name kwargs = (kwargs.map (fun kv => ({ name := kv.1, data := kv.2 } : VarData))).foldl BlockData.addVariable (BlockData.new name) := by
  unfold Block.mk'; rw [List.foldl_map]

theorem mk'_name (name : String) (kwargs : List (String × PyVal)) : (Block.mk' name kwargs).name = name := by
  rw [mk'_foldl, foldl_addVariable_name]; rfl

theorem varsOk_foldl (kwargs : List (String × PyVal)) : ∀ b : BlockData, VarsOk b.vars →
    VarsOk (kwargs.foldl (fun b kv => b.addVariable { name := kv.1, data := kv.2 }) b).vars := by
  induction kwargs with
  | nil => intro b h; exact h
  | cons p l ih => intro b h; exact ih _ (h.set { name := p.1, data := p.2 })

theorem varsOk_mk' (name : String) (kwargs : List (String × PyVal)) : VarsOk (Block.mk' name kwargs).vars :=
  varsOk_foldl kwargs _ ⟨List.nodup_nil, by intro k v h; cases h⟩

theorem lastValue_append (a b : List (String × PyVal)) (k : String) : lastValue (a ++ b) k = (lastValue b k).or (lastValue a k) := by
  unfold lastValue
  rw [List.filter_append, List.getLast?_append]
  cases ((b.filter (fun v => v.1 = k)).getLast?) <;> simp

theorem mk'_get? (name : String) (kwargs : List (String × PyVal)) (k : String) :
    ((Block.mk' name kwargs).vars.get? k).map (·.data) = lastValue kwargs k := by
  have key : ∀ (l : List (String × PyVal)) (b : BlockData),
      ((l.foldl (fun b kv => b.addVariable { name := kv.1, data := kv.2 }) b).vars.get? k).map (·.data) =
        (lastValue l k).or ((b.vars.get? k).map (·.data)) := by
    intro l
    induction l with
    | nil => intro b; rfl
    | cons p l ih =>
      intro b
      rw [List.foldl_cons, ih]
      show _ = (lastValue ([p] ++ l) k).or _
      rw [lastValue_append, Option.or_assoc]
      congr 1
      simp only [BlockData.addVariable, Dict.get?_set]
      by_cases hp : p.1 = k
      · simp [hp, lastValue]
      · simp [hp, lastValue]
  unfold Block.mk'
  rw [key]
  simp [BlockData.new, Dict.get?]

theorem getItem_of_get? (b : BlockData) (k : String) :
    b.getItem k = match (b.vars.get? k).map (·.data) with | some x => .ok x | none => .error .keyError := by
  unfold BlockData.getItem BlockData.getVariable Dict.get
  cases b.vars.get? k <;> rfl

theorem mk'_lastValue (name : String) (kwargs : List (String × PyVal)) (k : String) :
    (Block.mk' name kwargs).getItem k = match lastValue kwargs k with | some x => .ok x | none => .error .keyError := by
  rw [getItem_of_get?, mk'_get?]

/-! ## The builder -/

theorem get?_foldl_buildInstance (l : List BlockData) : ∀ (d : Dict String (List VarMap)) (n : String),
    (l.foldl buildInstance d).get? n =
      if l.filter (fun b => b.name = n) = [] then d.get? n
      else some ((d.get? n).getD [] ++ (l.filter (fun b => b.name = n)).map blockMap) := by
  induction l with
  | nil => intro d n; simp
  | cons b l ih =>
    intro d n
    have hb : (buildInstance d b).get? n = if b.name = n then some ((d.get? n).getD [] ++ [blockMap b]) else d.get? n := by
      unfold buildInstance
      split
      · rename_i h
        rw [Dict.get?_set]
        split
        · rename_i e; subst e; simp [h]
        · rfl
      · rename_i l h
        rw [Dict.get?_set]
        split
        · rename_i e; subst e; simp [h]
        · rfl
    rw [List.foldl_cons, ih, hb]
    by_cases hb : b.name = n
    · simp only [hb, if_true, List.filter_cons, decide_true]
      by_cases hf : l.filter (fun b => b.name = n) = []
      · simp [hf]
      · simp [hf]
    · simp [hb]

/-- The calls that declare a message's blocks. -/
def builderOps : Declaration → List BuilderOp
  | [] => []
  | b :: bs => .nextBlock b.1 :: (b.2.map (fun v => BuilderOp.addData v.1 v.2) ++ builderOps bs)

theorem run_append (a c : List BuilderOp) : ∀ b : Builder, b.run (a ++ c) = (b.run a) >>= fun b => b.run c := by
  induction a with
  | nil => intro b; rfl
  | cons op a ih =>
    intro b
    rw [List.cons_append, Builder.run, Builder.run]
    cases h : b.step op with
    | error e => rfl
    | ok b' => exact ih b'

theorem onLast_append (f : BlockData → BlockData) (l : List BlockData) (x : BlockData) : onLast f (l ++ [x]) = l ++ [f x] := by
  simp [onLast]

theorem addBlock_replace (d : Dict String (List BlockData)) (x : BlockData) (f : BlockData → BlockData) (hf : (f x).name = x.name) :
    ∃ l, (addBlock d x).get? x.name = some l ∧ (addBlock d x).set x.name (onLast f l) = addBlock d (f x) := by
  unfold addBlock
  rw [hf]
  cases h : d.get? x.name with
  | none =>
    refine ⟨[x], Dict.get?_set_self _ _ _, ?_⟩
    have : onLast f [x] = [f x] := onLast_append f [] x
    rw [this]
    exact Dict.set_set _ _ _ _
  | some l =>
    refine ⟨l ++ [x], Dict.get?_set_self _ _ _, ?_⟩
    rw [onLast_append]
    exact Dict.set_set _ _ _ _

theorem run_addData (vs : List (String × PyVal)) : ∀ (b : Builder) (nm : String) (d : Dict String (List BlockData)) (x : BlockData),
    b.msg = some (nm, addBlock d x) → b.cur = .live x.name →
    ∃ b', b.run (vs.map (fun v => BuilderOp.addData v.1 v.2)) = .ok b' ∧
      b'.msg = some (nm, addBlock d (vs.foldl (fun b kv => b.addVariable { name := kv.1, data := kv.2 }) x)) := by
  induction vs with
  | nil => intro b nm d x hm hc; exact ⟨b, rfl, hm⟩
  | cons v vs ih =>
    intro b nm d x hm hc
    obtain ⟨l, hl, hset⟩ := addBlock_replace d x (fun x => x.addVariable { name := v.1, data := v.2 }) rfl
    have hstep : b.step (.addData v.1 v.2) =
        .ok { b with built := false, msg := some (nm, addBlock d (x.addVariable { name := v.1, data := v.2 })) } := by
      simp only [Builder.step, Builder.addData, hc, hm, hl, hset]
    obtain ⟨b', h1, h2⟩ := ih { b with built := false, msg := some (nm, addBlock d (x.addVariable { name := v.1, data := v.2 })) } nm d
      (x.addVariable { name := v.1, data := v.2 }) rfl hc
    refine ⟨b', ?_, h2⟩
    rw [List.map_cons, Builder.run, hstep]
    exact h1

theorem run_builderOps (bs : Declaration) : ∀ (b : Builder) (nm : String) (d : Dict String (List BlockData)), b.msg = some (nm, d) →
    ∃ b', b.run (builderOps bs) = .ok b' ∧ b'.msg = some (nm, (bs.map (fun x => Block.mk' x.1 x.2)).foldl addBlock d) := by
  induction bs with
  | nil => intro b nm d h; exact ⟨b, rfl, h⟩
  | cons x bs ih =>
    intro b nm d h
    have hstep : b.step (.nextBlock x.1) =
        .ok { b with built := false, msg := some (nm, addBlock d (BlockData.new x.1)), cur := .live x.1, curBlockName := x.1 } := by
      simp only [Builder.step, Builder.nextBlock, h]
    obtain ⟨b1, h1, h2⟩ := run_addData x.2
      { b with built := false, msg := some (nm, addBlock d (BlockData.new x.1)), cur := .live x.1, curBlockName := x.1 } nm d (BlockData.new x.1) rfl rfl
    obtain ⟨b2, h3, h4⟩ := ih b1 nm (addBlock d (Block.mk' x.1 x.2)) h2
    refine ⟨b2, ?_, h4⟩
    rw [builderOps, Builder.run, hstep]
    show Builder.run _ _ = _
    rw [run_append, h1]
    exact h3

theorem filter_mk' (bs : Declaration) (n : String) :
    (bs.map (fun x => Block.mk' x.1 x.2)).filter (fun b => b.name = n) = (bs.instances n).map (fun vs => Block.mk' n vs) := by
  induction bs with
  | nil => rfl
  | cons x bs ih =>
    rw [List.map_cons, List.filter_cons]
    by_cases h : x.1 = n
    · simp only [mk'_name, h, decide_true, if_true, ih]
      simp [Declaration.instances, h]
    · simp only [mk'_name, h, decide_false, Bool.false_eq_true, if_false, ih]
      simp [Declaration.instances, h]

/-! ## `to_dict` -/

theorem instanceMap_ok (b : BlockData) (ns : List String) (hn : ∀ n ∈ ns, ∃ v, b.vars.get? n = some v ∧ v.name = n) : ∀ acc : VarMap,
    ∃ m, instanceMap b ns acc = .ok m ∧ ∀ k, m.get? k = if k ∈ ns then (b.vars.get? k).map (·.data) else acc.get? k := by
  induction ns with
  | nil => intro acc; exact ⟨acc, rfl, by intro k; simp⟩
  | cons n ns ih =>
    intro acc
    obtain ⟨v, hv, hname⟩ := hn n List.mem_cons_self
    obtain ⟨m, h1, h2⟩ := ih (fun x hx => hn x (List.mem_cons_of_mem _ hx)) (acc.set v.name v.data)
    refine ⟨m, ?_, ?_⟩
    · rw [instanceMap]
      simp only [BlockData.getVariable, Dict.get, hv]
      exact h1
    · intro k
      rw [h2 k, Dict.get?_set, hname]
      by_cases hk : k ∈ ns
      · simp [hk]
      · by_cases hnk : n = k
        · subst hnk; simp [hk, hv]
        · have : ¬ k = n := fun e => hnk e.symm
          simp [hk, hnk, this]

/-- A block built by the library: `var_list` lists exactly the variables. -/
structure BlockOk (b : BlockData) : Prop where
  vars : VarsOk b.vars
  list : ∀ n, n ∈ b.varList ↔ n ∈ b.vars.keys

theorem BlockOk.map {b : BlockData} (h : BlockOk b) : ∃ m, instanceMap b b.varList [] = .ok m ∧ ∀ k, m.get? k = (b.vars.get? k).map (·.data) := by
  obtain ⟨m, h1, h2⟩ := instanceMap_ok b b.varList (fun n hn => by
    have hk := (h.list n).mp hn
    cases hv : b.vars.get? n with
    | none => exact absurd hk ((Dict.get?_eq_none_iff _ _).mp hv)
    | some v => exact ⟨v, rfl, h.vars.names n v (Dict.mem_of_get? hv)⟩) []
  refine ⟨m, h1, fun k => ?_⟩
  rw [h2 k]
  split
  · rfl
  · rename_i hk
    have : b.vars.get? k = none := (Dict.get?_eq_none_iff _ _).mpr (fun hm => hk ((h.list k).mpr hm))
    simp [this, Dict.get?]

theorem BlockOk.new (name : String) : BlockOk (BlockData.new name) := ⟨⟨List.nodup_nil, by intro k v h; cases h⟩, by intro n; rfl⟩

theorem BlockOk.addVariable {b : BlockData} (h : BlockOk b) (v : VarData) : BlockOk (b.addVariable v) := by
  refine ⟨h.vars.set v, fun n => ?_⟩
  simp only [BlockData.addVariable, List.mem_append, List.mem_singleton, Dict.keys_set, h.list n]
  split
  · rename_i hm
    constructor
    · rintro (h | rfl)
      · exact h
      · exact hm
    · exact .inl
  · simp

theorem blockOk_mk' (name : String) (kwargs : List (String × PyVal)) : BlockOk (Block.mk' name kwargs) := by
  unfold Block.mk'
  have : ∀ b : BlockData, BlockOk b → BlockOk (kwargs.foldl (fun b kv => b.addVariable { name := kv.1, data := kv.2 }) b) := by
    induction kwargs with
    | nil => intro b h; exact h
    | cons p l ih => intro b h; exact ih _ (h.addVariable _)
  exact this _ (.new name)

theorem instancesLoop_last (bs : List BlockData) (hne : bs ≠ []) (hok : ∀ b ∈ bs, BlockOk b) : ∀ acc,
    ∃ m, instancesLoop bs acc = .ok (some m) ∧ ∀ k, m.get? k = ((bs.getLast hne).vars.get? k).map (·.data) := by
  induction bs with
  | nil => exact absurd rfl hne
  | cons b bs ih =>
    intro acc
    obtain ⟨m, h1, h2⟩ := (hok b List.mem_cons_self).map
    cases bs with
    | nil => exact ⟨m, by simp only [instancesLoop, h1]; rfl, h2⟩
    | cons c bs =>
      obtain ⟨m', h3, h4⟩ := ih (by simp) (fun x hx => hok x (List.mem_cons_of_mem _ hx)) (some m)
      refine ⟨m', ?_, by simpa using h4⟩
      rw [instancesLoop, h1]
      exact h3

theorem toDictLoop_ok (d : Dict String (List BlockData)) : BlocksOk d → (∀ k l, (k, l) ∈ d → ∀ b ∈ l, BlockOk b) →
    ∀ (nv : Option VarMap) (body : Dict String (List VarMap)), (∀ k ∈ d.keys, body.get? k = none) →
    ∃ r, toDictLoop d nv body = .ok r ∧
      (∀ n, Dict.get? d n = none → r.get? n = body.get? n) ∧
      ∀ n l, Dict.get? d n = some l → ∃ m, r.get? n = some [m] ∧ ∃ hne, ∀ k, m.get? k = ((l.getLast hne).vars.get? k).map (·.data) := by
  induction d with
  | nil =>
    intro _ _ nv body _
    exact ⟨body, rfl, fun _ _ => rfl, fun n l h => by cases h⟩
  | cons p d ih =>
    obtain ⟨k, l⟩ := p
    intro hd hb nv body hbody
    have hk := hd.keys
    rw [Dict.keys_cons, List.nodup_cons] at hk
    have hd' : BlocksOk d := ⟨hk.2, fun k' l' hm => hd.names k' l' (List.mem_cons_of_mem _ hm)⟩
    have hne := (hd.names k l List.mem_cons_self).1
    obtain ⟨m, h1, h2⟩ := instancesLoop_last l hne (hb k l List.mem_cons_self) nv
    have hnone : body.get? k = none := hbody k List.mem_cons_self
    obtain ⟨r, h3, h4, h5⟩ := ih hd' (fun k' l' hm => hb k' l' (List.mem_cons_of_mem _ hm)) (some m) (body.set k [m]) (by
      intro k' hk'
      rw [Dict.get?_set, if_neg (by rintro rfl; exact hk.1 hk')]
      exact hbody k' (List.mem_cons_of_mem _ hk'))
    refine ⟨r, ?_, ?_, ?_⟩
    · rw [toDictLoop, h1]
      simp only [bind, Except.bind, hnone]
      exact h3
    · intro n hn
      have hkn : k ≠ n := by rintro rfl; simp [Dict.get?] at hn
      rw [h4 n (by simpa [Dict.get?, hkn] using hn), Dict.get?_set, if_neg hkn]
    · intro n l' hn
      by_cases hkn : k = n
      · subst hkn
        have : l' = l := by simpa [Dict.get?] using hn.symm
        subst this
        refine ⟨m, ?_, hne, h2⟩
        rw [h4 k ((Dict.get?_eq_none_iff d k).mpr hk.1), Dict.get?_set_self]
      · exact h5 n l' (by simpa [Dict.get?, hkn] using hn)

end Pyogp
