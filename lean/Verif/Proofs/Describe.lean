import Verif.Model.Describe
import Verif.Spec.Describe
import Verif.Proofs.TemplateFile
import Verif.Proofs.Helpers

namespace Pyogp
open Spec

theorem strNat_repr (n : Nat) : strNat n = n.repr.toList := by rw [Nat.toList_repr]; rfl

theorem freq_shown (f : Frequency) : f.asString = (shownFreq f).toList := by cases f <;> decide +kernel
theorem blockType_shown (t : BlockType) : t.asString = (shownBlockType t).toList := by cases t <;> decide +kernel
theorem type_shown (t : MsgType) : t.asString = (shownType t).toList := by cases t <;> decide +kernel
theorem trust_shown (t : Trust) : trustAsString (some t) = .ok (trustWord t).toList := by cases t <;> rfl
theorem encoding_shown (t : Encoding) : encodingAsString (some t) = .ok (encodingWord t).toList := by cases t <;> rfl
theorem deprecation_shown (t : Deprecation) : deprecationAsString (some t) = .ok (deprecationWord t).toList := by cases t <;> rfl

theorem hex_byte (x : UInt8) : List.replicate (2 - (hexU x.toNat).length) '0' ++ hexU x.toNat =
    ["0123456789ABCDEF".toList.getD (x.toNat / 16) ' ', "0123456789ABCDEF".toList.getD (x.toNat % 16) ' '] := by
  have : ∀ n : Fin 256, List.replicate (2 - (hexU n.val).length) '0' ++ hexU n.val =
      ["0123456789ABCDEF".toList.getD (n.val / 16) ' ', "0123456789ABCDEF".toList.getD (n.val % 16) ' '] := by decide +kernel
  exact this ⟨x.toNat, x.toNat_lt⟩

theorem hexText_nows (b : Bytes) : ∀ c ∈ hexText b, isWs c = false := by
  have key : ∀ n : Fin 16, isWs ("0123456789ABCDEF".toList.getD n.val ' ') = false := by decide +kernel
  intro c hc
  obtain ⟨x, _, hx⟩ := List.mem_flatMap.mp hc
  have hlt := x.toNat_lt
  simp only [List.mem_cons, List.not_mem_nil, or_false] at hx
  rcases hx with rfl | rfl
  · exact key ⟨x.toNat / 16, by omega⟩
  · exact key ⟨x.toNat % 16, by omega⟩

theorem strip_nows (s : List Char) (h : ∀ c ∈ s, isWs c = false) : strip s = s := by
  have hd : ∀ l : List Char, (∀ c ∈ l, isWs c = false) → l.dropWhile isWs = l := by
    intro l hl
    cases l with
    | nil => rfl
    | cons c l => rw [List.dropWhile_cons_of_neg (by rw [hl c List.mem_cons_self]; decide)]
  unfold strip
  rw [hd s h, hd s.reverse (fun c hc => h c (List.mem_reverse.mp hc)), List.reverse_reverse]

theorem hexNum_shown (b : Bytes) : messageHexNum b = hexText b := by
  have : b.flatMap (fun x => List.replicate (2 - (hexU x.toNat).length) '0' ++ hexU x.toNat) = hexText b := by
    unfold hexText
    congr 1
    funext x
    exact hex_byte x
  unfold messageHexNum
  rw [this, strip_nows _ (hexText_nows b)]

theorem printVar_known {x : RawVar} {v : TVar} (h : x.known = some v) : printVar x = .ok (varText v) := by
  obtain ⟨n, ty, sz⟩ := x
  cases ty with
  | none => cases h
  | some t =>
    cases sz with
    | none => cases h
    | some k =>
      cases h
      simp only [printVar, RawVar.typeAsString, bind, Except.bind, ljust, varText, type_shown]
      simp

theorem mapM_ok {α β γ : Type} (f : α → Option β) (g : α → Py γ) (k : β → γ) (h : ∀ a b, f a = some b → g a = .ok (k b)) :
    ∀ (l : List α) (l' : List β), l.mapM f = some l' → l.mapM g = .ok (l'.map k) := by
  intro l
  induction l with
  | nil => intro l' h'; cases h'; rfl
  | cons a l ih =>
    intro l' h'
    simp only [List.mapM_cons] at h'
    cases ha : f a with
    | none => rw [ha] at h'; cases h'
    | some b =>
      rw [ha] at h'
      cases hl : l.mapM f with
      | none => rw [hl] at h'; cases h'
      | some bs =>
        rw [hl] at h'
        cases h'
        simp only [List.mapM_cons, h a b ha, ih bs hl]
        rfl

theorem printBlock_known {x : RawBlock} {b : TBlock} (h : x.known = some b) : printBlock x = .ok (blockText b) := by
  unfold RawBlock.known at h
  cases hv : x.vars.reverse.mapM RawVar.known with
  | none => rw [hv] at h; cases h
  | some vs =>
    rw [hv] at h
    cases h
    unfold printBlock
    rw [mapM_ok _ printVar varText (fun _ _ => printVar_known) _ _ hv]
    simp [bind, Except.bind, blockText, line, blockType_shown, strNat_repr, List.intercalate]

theorem printPacket_known {x : RawTemplate} {t : Template} (h : x.known = some t) {tr : Trust} {en : Encoding} {de : Deprecation}
    (h1 : t.trust = some tr) (h2 : t.encoding = some en) (h3 : t.deprecation = some de) :
    ∃ ls, printPacket x = .ok ls ∧ MessageText t x.msgNumHex ls := by
  unfold RawTemplate.known at h
  cases hb : x.blocks.reverse.mapM RawBlock.known with
  | none => rw [hb] at h; cases h
  | some bs =>
    rw [hb] at h
    cases h
    simp only at h1 h2 h3
    refine ⟨_, ?_, tr, en, de, h1, h2, h3, rfl⟩
    unfold printPacket
    rw [h1, h2, h3, mapM_ok _ printBlock blockText (fun _ _ => printBlock_known) _ _ hb, trust_shown, encoding_shown, deprecation_shown]
    simp [bind, Except.bind, line, freq_shown, strNat_repr, hexNum_shown, List.intercalate, ruleLine, List.flatMap]

theorem printList_known : ∀ (raws : List RawTemplate) (ts : List Template), raws.mapM RawTemplate.known = some ts →
    (∀ t ∈ ts, t.trust.isSome ∧ t.encoding.isSome ∧ t.deprecation.isSome) →
    ∃ ls, printPacketList raws = .ok ls ∧ Listing ls (ts.zip (raws.map (·.msgNumHex))) := by
  intro raws
  induction raws with
  | nil => intro ts h _; cases h; exact ⟨[], rfl, .nil⟩
  | cons x raws ih =>
    intro ts h hs
    simp only [List.mapM_cons] at h
    cases hx : x.known with
    | none => rw [hx] at h; cases h
    | some t =>
      rw [hx] at h
      cases hr : raws.mapM RawTemplate.known with
      | none => rw [hr] at h; cases h
      | some us =>
        rw [hr] at h
        cases h
        obtain ⟨h1, h2, h3⟩ := hs t List.mem_cons_self
        obtain ⟨tr, h1⟩ := Option.isSome_iff_exists.mp h1
        obtain ⟨en, h2⟩ := Option.isSome_iff_exists.mp h2
        obtain ⟨de, h3⟩ := Option.isSome_iff_exists.mp h3
        obtain ⟨ls, h4, h5⟩ := printPacket_known hx h1 h2 h3
        obtain ⟨ls', h6, h7⟩ := ih us hr (fun t ht => hs t (List.mem_cons_of_mem _ ht))
        refine ⟨ls ++ ls', ?_, .cons _ _ _ _ _ h5 h7⟩
        unfold printPacketList at h6 ⊢
        simp only [List.mapM_cons, h4]
        cases hm : raws.mapM printPacket with
        | error e => rw [hm] at h6; cases h6
        | ok l =>
          rw [hm] at h6
          cases h6
          rfl

/-! ## The ids the parser makes -/

theorem pack_byte_id {v : PyVersion} {n : Nat} {b : Bytes} (h : structPack v .big .B n = .ok b) : b = [UInt8.ofNat n] := by
  unfold structPack at h
  have key : Endian.big.order (leBytes IntFmt.B.size ((n : Int) % ((2 ^ (8 * IntFmt.B.size) : Nat) : Int)).toNat) = [UInt8.ofNat n] := by
    have : ((n : Int) % ((2 ^ (8 * IntFmt.B.size) : Nat) : Int)).toNat = n % 256 := by simp only [IntFmt.size]; omega
    rw [this]
    simp only [Endian.order, IntFmt.size, leBytes, List.reverse_cons, List.reverse_nil, List.nil_append, List.cons.injEq, and_true]
    apply UInt8.toNat.inj
    simp
  split at h
  · cases h; exact key
  · cases v with
    | v26 => cases h; exact key
    | v27 => cases h

theorem pack_u32_shape {v : PyVersion} {n : Nat} {x : Bytes} (h : structPack v .big .I n = .ok x) : ∃ a b c d, x = [a, b, c, d] := by
  unfold structPack at h
  split at h
  · cases h; exact ⟨_, _, _, _, rfl⟩
  · cases v with
    | v26 =>
      cases h
      exact ⟨_, _, _, _, rfl⟩
    | v27 => cases h

theorem numOfFreq_id {v : PyVersion} {f : Option Frequency} {k : Nat} {f' : Frequency} {n : Nat} {id : Bytes}
    (h : numOfFreq v f k = .ok (f', n, id)) : ParserId f' n id := by
  cases f with
  | none => cases h
  | some f =>
    cases f with
    | fixed =>
      simp only [numOfFreq] at h
      cases hp : structPack v .big .I k with
      | error e => rw [hp] at h; cases h
      | ok b =>
        rw [hp] at h
        obtain ⟨a, b', c, d, rfl⟩ := pack_u32_shape hp
        cases h
        exact ⟨a, b', c, by simp⟩
    | low =>
      simp only [numOfFreq] at h
      cases hp : structPack v .big .B k with
      | error e => rw [hp] at h; cases h
      | ok b => rw [hp] at h; cases pack_byte_id hp; cases h; rfl
    | medium =>
      simp only [numOfFreq] at h
      cases hp : structPack v .big .B k with
      | error e => rw [hp] at h; cases h
      | ok b => rw [hp] at h; cases pack_byte_id hp; cases h; rfl
    | high =>
      simp only [numOfFreq] at h
      cases hp : structPack v .big .B k with
      | error e => rw [hp] at h; cases h
      | ok b => rw [hp] at h; cases pack_byte_id hp; cases h; rfl

/-- All templates so far have the ids the parser makes. -/
def IdsOk (ts : List RawTemplate) : Prop := ∀ t ∈ ts, ParserId t.freq t.msgNum t.msgNumHex

theorem addVarCur_ids {x : RawVar} : ∀ {ts ts' : List RawTemplate}, addVarCur x ts = .ok ts' → IdsOk ts → IdsOk ts'
  | [], _, h, _ => by cases h
  | t :: ts, ts', h, hi => by
    unfold addVarCur at h
    cases hb : t.blocks with
    | cons b bs =>
      rw [hb] at h
      cases h
      intro y hy
      rcases List.mem_cons.mp hy with rfl | hy
      · exact hi t List.mem_cons_self
      · exact hi y (List.mem_cons_of_mem _ hy)
    | nil =>
      rw [hb] at h
      cases hr : addVarCur x ts with
      | error e => rw [hr] at h; cases h
      | ok us =>
        rw [hr] at h
        cases h
        intro y hy
        rcases List.mem_cons.mp hy with rfl | hy
        · exact hi _ List.mem_cons_self
        · exact addVarCur_ids hr (fun z hz => hi z (List.mem_cons_of_mem _ hz)) y hy

theorem parseLine_ids {v : PyVersion} {st st' : ParserState} {l : List Char} (h : parseLine v st l = .ok st') (hi : IdsOk st.templates) :
    IdsOk st'.templates := by
  unfold parseLine at h
  split at h
  · cases h; exact hi
  · cases hr : readVersion l st with
    | error e => rw [hr] at h; cases h
    | ok a =>
      rw [hr] at h
      have ha : a.templates = st.templates := by
        unfold readVersion at hr
        split at hr
        · cases hr; rfl
        · split at hr <;> cases hr <;> rfl
      have ho : (openBrace l a).templates = st.templates := by unfold openBrace; split <;> exact ha
      simp only [bind, Except.bind] at h
      cases hm : stepMessage v l (openBrace l a) with
      | error e => rw [hm] at h; cases h
      | ok b =>
        rw [hm] at h
        have hb : IdsOk b.templates := by
          unfold stepMessage at hm
          split at hm
          · split at hm
            · cases hm; rw [ho]; exact hi
            · rename_i m _
              cases hn : startNewTemplate v m with
              | error e => rw [hn] at hm; cases hm
              | ok t =>
                rw [hn] at hm
                cases hm
                intro y hy
                rcases List.mem_cons.mp hy with rfl | hy
                · unfold startNewTemplate at hn
                  split at hn
                  · rename_i g3 _ _ _
                    cases hk : atoi0 g3 with
                    | error e => rw [hk] at hn; cases hn
                    | ok k =>
                      rw [hk] at hn
                      simp only [bind, Except.bind] at hn
                      split at hn
                      · cases hn
                      · rename_i x hx
                        obtain ⟨f, n, id⟩ := x
                        cases hn
                        exact numOfFreq_id hx
                  · cases hn
                · rw [ho] at hy; exact hi y hy
          · cases hm; rw [ho]; exact hi
        simp only at h
        cases hs : stepBlock l b with
        | error e => rw [hs] at h; cases h
        | ok c =>
          rw [hs] at h
          have hc : IdsOk c.templates := by
            unfold stepBlock at hs
            split at hs
            · split at hs
              · cases hs; exact hb
              · rename_i m _
                cases hn : startNewBlock m with
                | error e => rw [hn] at hs; cases hs
                | ok bl =>
                  rw [hn] at hs
                  simp only [bind, Except.bind] at hs
                  cases hbt : b.templates with
                  | nil => rw [hbt] at hs; cases hs
                  | cons t ts =>
                    rw [hbt] at hs
                    cases hs
                    rw [hbt] at hb
                    intro y hy
                    rcases List.mem_cons.mp hy with rfl | hy
                    · exact hb t List.mem_cons_self
                    · exact hb y (List.mem_cons_of_mem _ hy)
            · cases hs; exact hb
          simp only at h
          cases hd : stepData l c with
          | error e => rw [hd] at h; cases h
          | ok d =>
            rw [hd] at h
            cases h
            have : IdsOk d.templates := by
              unfold stepData at hd
              split at hd
              · split at hd
                · cases hd; exact hc
                · rename_i m _
                  cases hn : startNewVar m with
                  | error e => rw [hn] at hd; cases hd
                  | ok x =>
                    rw [hn] at hd
                    simp only [bind, Except.bind] at hd
                    cases hav : addVarCur x c.templates with
                    | error e => rw [hav] at hd; cases hd
                    | ok us =>
                      rw [hav] at hd
                      cases hd
                      exact addVarCur_ids hav hc
              · cases hd; exact hc
            unfold closeBrace
            split <;> exact this

theorem parseFile_ids {v : PyVersion} {file : List (List Char)} {raws : List RawTemplate} (h : parseTemplateFile v file = .ok raws) : IdsOk raws := by
  have key : ∀ (ls : List (List Char)) (st st' : ParserState), parseLines v st ls = .ok st' → IdsOk st.templates → IdsOk st'.templates := by
    intro ls
    induction ls with
    | nil => intro st st' h hi; cases h; exact hi
    | cons l ls ih =>
      intro st st' h hi
      simp only [parseLines, bind, Except.bind] at h
      cases hl : parseLine v st l with
      | error e => rw [hl] at h; cases h
      | ok a => rw [hl] at h; exact ih a st' h (parseLine_ids hl hi)
  unfold parseTemplateFile at h
  cases hp : parseLines v ⟨none, 0, []⟩ file with
  | error e => rw [hp] at h; cases h
  | ok st =>
    rw [hp] at h
    cases h
    intro t ht
    exact key file _ st hp (fun _ h => by cases h) t (List.mem_reverse.mp ht)

/-! ## What a layout declares -/

theorem toList_ofList (l : List Char) : (String.ofList l).toList = l := by simp

theorem layout_complete {file : List (List Char)} {ts : List Template} (h : Layout file ts) :
    ∀ t ∈ ts, t.trust.isSome ∧ t.encoding.isSome ∧ t.deprecation.isSome ∧ WordNames t ∧ t.msgNumHex = [] := by
  have hvars : ∀ {ls : List (List Char)} {vs : List TVar}, VarLines ls vs → ∀ v ∈ vs, Word v.name.toList := by
    intro ls vs h
    induction h with
    | nil => intro v hv; cases hv
    | filler l ls vs _ _ ih => exact ih
    | var l ls v vs hl _ ih =>
      intro x hx
      rcases List.mem_cons.mp hx with rfl | hx
      · obtain ⟨_, _, name, _, _, _, _, hw, _, hn, _⟩ := hl
        rw [hn, toList_ofList]; exact hw
      · exact ih x hx
  have hblocks : ∀ {ls : List (List Char)} {bs : List TBlock}, BlockLines ls bs →
      ∀ b ∈ bs, Word b.name.toList ∧ ∀ v ∈ b.vars, Word v.name.toList := by
    intro ls bs h
    induction h with
    | nil => intro v hv; cases hv
    | filler l ls vs _ _ ih => exact ih
    | block o fs h vs c ls tb tbs _ _ hb hv _ _ ih =>
      intro x hx
      rcases List.mem_cons.mp hx with rfl | hx
      · obtain ⟨_, name, _, _, _, hw, _, hn, _⟩ := hb
        exact ⟨by rw [hn, toList_ofList]; exact hw, hvars hv⟩
      · exact ih x hx
  induction h with
  | nil => intro t ht; cases ht
  | idle l ls ts _ _ ih => exact ih
  | message o fs h bs c ls t ts _ _ hh hb _ _ ih =>
    intro x hx
    rcases List.mem_cons.mp hx with rfl | hx
    · obtain ⟨m, name, s₁, s₂, num, k, s₃, tr, s₄, en, rest, hm, hname, hs₁, hs₂, hnum, hs₃, hs₄, hl, hnb, hn, hdn, htr, hen, hhex, hdep⟩ := hh
      refine ⟨by rw [htr]; rfl, by rw [hen]; rfl, ?_, ⟨by rw [hn, toList_ofList]; exact hname, hblocks hb⟩, hhex⟩
      rcases hdep with ⟨_, hd⟩ | ⟨_, _, _, _, _, _, hd⟩ <;> rw [hd] <;> rfl
    · exact ih x hx

/-! ## Reading a listing -/

/-- The words of a line. -/
def splitWords : List Char → List (List Char)
  | [] => [[]]
  | c :: l => if c = ' ' then [] :: splitWords l else
    match splitWords l with
    | w :: ws => (c :: w) :: ws
    | [] => [[c]]

theorem split_ne (l : List Char) : splitWords l ≠ [] := by
  cases l with
  | nil => simp [splitWords]
  | cons c l =>
    unfold splitWords
    split
    · simp
    · split <;> simp

theorem split_word (w : List Char) (hw : ' ' ∉ w) (r : List Char) : splitWords (w ++ ' ' :: r) = w :: splitWords r := by
  induction w with
  | nil => simp [splitWords]
  | cons c w ih =>
    have hc : c ≠ ' ' := fun e => hw (e ▸ List.mem_cons_self)
    have : splitWords (c :: (w ++ ' ' :: r)) = match splitWords (w ++ ' ' :: r) with | w :: ws => (c :: w) :: ws | [] => [[c]] := by
      rw [splitWords, if_neg hc]
    rw [List.cons_append, this, ih (fun h => hw (List.mem_cons_of_mem _ h))]

theorem split_last (w : List Char) (hw : ' ' ∉ w) : splitWords w = [w] := by
  induction w with
  | nil => rfl
  | cons c w ih =>
    have hc : c ≠ ' ' := fun e => hw (e ▸ List.mem_cons_self)
    have : splitWords (c :: w) = match splitWords w with | w :: ws => (c :: w) :: ws | [] => [[c]] := by
      rw [splitWords, if_neg hc]
    rw [this, ih (fun h => hw (List.mem_cons_of_mem _ h))]

theorem split_line : ∀ (ws : List String), ws ≠ [] → (∀ w ∈ ws, ' ' ∉ w.toList) → splitWords (line ws) = ws.map String.toList
  | [], h, _ => absurd rfl h
  | [w], _, h => by
    have : line [w] = w.toList := by simp [line, List.intercalate]
    rw [this, split_last _ (h w List.mem_cons_self)]; rfl
  | w :: w' :: ws, _, h => by
    have : line (w :: w' :: ws) = w.toList ++ ' ' :: line (w' :: ws) := by
      simp [line, List.intercalate]
    rw [this, split_word _ (h w List.mem_cons_self), split_line (w' :: ws) (by simp) (fun x hx => h x (List.mem_cons_of_mem _ hx))]
    rfl

/-- The parts of a listing, not interpreted. -/
structure Shown where
  vars : List (List Char × List Char)
  blocks : List (List (List Char) × List (List Char × List Char))
  messages : List (List (List Char) × List (List (List Char) × List (List Char × List Char)))

def readLine (l : List Char) (s : Shown) : Shown :=
  match l with
  | '\t' :: '\t' :: r => { s with vars := (r.takeWhile (fun c => c ≠ ' ' ∧ c ≠ '\t'), (r.dropWhile (· ≠ '\t')).drop 1) :: s.vars }
  | '\t' :: r => { s with blocks := (splitWords r, s.vars) :: s.blocks, vars := [] }
  | '=' :: _ => s
  | l => { s with messages := (splitWords l, s.blocks) :: s.messages, blocks := [] }

def readListing (ls : List (List Char)) : Shown := ls.foldr readLine ⟨[], [], []⟩

def shownVar (v : TVar) : List Char × List Char := (v.name.toList, (shownType v.type).toList)
def shownBlock (b : TBlock) : List (List Char) × List (List Char × List Char) :=
  ([b.name.toList, (shownBlockType b.blockType).toList, b.number.repr.toList], b.vars.map shownVar)

theorem word_chars {w : List Char} (h : Word w) : ' ' ∉ w ∧ '\t' ∉ w ∧ '=' ∉ w := by
  refine ⟨fun hm => ?_, fun hm => ?_, fun hm => ?_⟩ <;>
    · have := h.2 _ hm
      unfold WordChar at this
      revert this
      decide

theorem read_var (v : TVar) (hv : Word v.name.toList) (s : Shown) :
    readLine (varText v) s = { s with vars := shownVar v :: s.vars } := by
  obtain ⟨h1, h2, _⟩ := word_chars hv
  have e : ∀ (k : Nat) (r : List Char), ((v.name.toList ++ List.replicate k ' ') ++ '\t' :: r).takeWhile (fun c => c ≠ ' ' ∧ c ≠ '\t') = v.name.toList := by
    intro k r
    rw [List.append_assoc]
    rw [List.takeWhile_append_of_pos (by
      intro c hc
      have a1 : c ≠ ' ' := fun e => h1 (e ▸ hc)
      have a2 : c ≠ '\t' := fun e => h2 (e ▸ hc)
      simp [a1, a2])]
    cases k with
    | zero => simp
    | succ k => simp [List.replicate_succ]
  have e2 : ∀ (k : Nat) (r : List Char), ((v.name.toList ++ List.replicate k ' ') ++ '\t' :: r).dropWhile (· ≠ '\t') = '\t' :: r := by
    intro k r
    rw [List.dropWhile_append_of_pos (by
      intro c hc
      rcases List.mem_append.mp hc with hc | hc
      · have a2 : c ≠ '\t' := fun e => h2 (e ▸ hc)
        simp [a2]
      · have := (List.mem_replicate.mp hc).2
        subst this
        decide)]
    simp
  have : varText v = '\t' :: '\t' :: (v.name.toList ++ List.replicate (20 - v.name.toList.length) ' ' ++ '\t' :: (shownType v.type).toList) := by
    simp [varText]
  rw [this]
  simp only [readLine, e, e2, shownVar, List.drop_succ_cons, List.drop_zero]

theorem repr_nospace (n : Nat) : ' ' ∉ n.repr.toList := by
  rw [Nat.toList_repr]
  intro h
  have := Nat.isDigit_of_mem_toDigits (by decide) (by decide) h
  revert this
  decide

theorem blockType_nospace (t : BlockType) : ' ' ∉ (shownBlockType t).toList := by cases t <;> decide +kernel

theorem read_vars (vs : List TVar) (hv : ∀ v ∈ vs, Word v.name.toList) (s : Shown) :
    (vs.map varText).foldr readLine s = { s with vars := vs.map shownVar ++ s.vars } := by
  induction vs with
  | nil => rfl
  | cons v vs ih =>
    simp only [List.map_cons, List.foldr_cons]
    rw [ih (fun x hx => hv x (List.mem_cons_of_mem _ hx)), read_var v (hv v List.mem_cons_self)]
    rfl

theorem read_block (b : TBlock) (hb : Word b.name.toList ∧ ∀ v ∈ b.vars, Word v.name.toList) (s : Shown) (hs : s.vars = []) :
    (blockText b).foldr readLine s = { s with blocks := shownBlock b :: s.blocks } := by
  unfold blockText
  rw [List.foldr_cons, read_vars _ hb.2]
  obtain ⟨h1, h2, _⟩ := word_chars hb.1
  have hl := split_line [b.name, shownBlockType b.blockType, b.number.repr] (by simp) (by
    intro w hw
    simp only [List.mem_cons, List.not_mem_nil, or_false] at hw
    rcases hw with rfl | rfl | rfl
    · exact h1
    · exact blockType_nospace _
    · exact repr_nospace _)
  obtain ⟨c, r, hc⟩ : ∃ c r, line [b.name, shownBlockType b.blockType, b.number.repr] = c :: r ∧ c ≠ '\t' := by
    cases hn : b.name.toList with
    | nil => exact absurd hn hb.1.1
    | cons c n =>
      refine ⟨c, n ++ ' ' :: line [shownBlockType b.blockType, b.number.repr], by simp [line, List.intercalate, List.intersperse, hn], ?_⟩
      rintro rfl
      exact h2 (hn ▸ List.mem_cons_self)
  rw [hc.1] at hl ⊢
  unfold readLine
  split
  · rename_i heq; simp only [List.cons.injEq] at heq; exact absurd heq.2.1 hc.2
  · rename_i heq
    simp only [List.cons.injEq, true_and] at heq
    subst heq
    rw [hl, hs]
    simp [shownBlock]
  · rename_i heq; simp at heq
  · rename_i _ h _; exact absurd rfl (h _)

theorem read_blocks (bs : List TBlock) (hb : ∀ b ∈ bs, Word b.name.toList ∧ ∀ v ∈ b.vars, Word v.name.toList) (s : Shown) (hs : s.vars = []) :
    (bs.flatMap blockText).foldr readLine s = { s with blocks := bs.map shownBlock ++ s.blocks } := by
  induction bs with
  | nil => rfl
  | cons b bs ih =>
    simp only [List.flatMap_cons, List.foldr_append]
    rw [ih (fun x hx => hb x (List.mem_cons_of_mem _ hx)), read_block b (hb b List.mem_cons_self) _ (by exact hs)]
    rfl

theorem freq_nospace (t : Frequency) : ' ' ∉ (shownFreq t).toList := by cases t <;> decide +kernel
theorem trust_nospace (t : Trust) : ' ' ∉ (trustWord t).toList := by cases t <;> decide +kernel
theorem encoding_nospace (t : Encoding) : ' ' ∉ (encodingWord t).toList := by cases t <;> decide +kernel
theorem deprecation_nospace (t : Deprecation) : ' ' ∉ (deprecationWord t).toList := by cases t <;> decide +kernel

/-- The parts of a message. -/
def shownMessage (t : Template) (id : Bytes) (tr : Trust) (en : Encoding) (de : Deprecation) :
    List (List Char) × List (List (List Char) × List (List Char × List Char)) :=
  ([t.name.toList, (shownFreq t.freq).toList, t.msgNum.repr.toList, hexText id, (trustWord tr).toList, (encodingWord en).toList,
    (deprecationWord de).toList], t.blocks.map shownBlock)

theorem read_message {t : Template} {id : Bytes} {ls : List (List Char)} (h : MessageText t id ls) (hw : WordNames t) (s : Shown)
    (h1 : s.vars = []) (h2 : s.blocks = []) : ∃ tr en de, t.trust = some tr ∧ t.encoding = some en ∧ t.deprecation = some de ∧
    ls.foldr readLine s = { s with messages := shownMessage t id tr en de :: s.messages } := by
  obtain ⟨tr, en, de, g1, g2, g3, rfl⟩ := h
  refine ⟨tr, en, de, g1, g2, g3, ?_⟩
  rw [List.foldr_cons, List.foldr_cons, read_blocks _ hw.2 s h1]
  have hrule : ∀ s, readLine (List.replicate 81 '=') s = s := fun s => rfl
  rw [hrule]
  obtain ⟨n1, n2, n3⟩ := word_chars hw.1
  have hl := split_line [t.name, shownFreq t.freq, t.msgNum.repr, String.ofList (hexText id), trustWord tr, encodingWord en, deprecationWord de]
    (by simp) (by
    intro w hw
    simp only [List.mem_cons, List.not_mem_nil, or_false] at hw
    rcases hw with rfl | rfl | rfl | rfl | rfl | rfl | rfl
    · exact n1
    · exact freq_nospace _
    · exact repr_nospace _
    · rw [toList_ofList]
      intro h
      have := hexText_nows id _ h
      revert this; decide
    · exact trust_nospace _
    · exact encoding_nospace _
    · exact deprecation_nospace _)
  obtain ⟨c, r, hc, hc1, hc2⟩ : ∃ c r, line [t.name, shownFreq t.freq, t.msgNum.repr, String.ofList (hexText id), trustWord tr, encodingWord en,
      deprecationWord de] = c :: r ∧ c ≠ '\t' ∧ c ≠ '=' := by
    cases hn : t.name.toList with
    | nil => exact absurd hn hw.1.1
    | cons c n =>
      refine ⟨c, n ++ ' ' :: line [shownFreq t.freq, t.msgNum.repr, String.ofList (hexText id), trustWord tr, encodingWord en,
        deprecationWord de], by simp [line, List.intercalate, List.intersperse, hn], ?_, ?_⟩
      · rintro rfl; exact n2 (hn ▸ List.mem_cons_self)
      · rintro rfl; exact n3 (hn ▸ List.mem_cons_self)
  rw [hc] at hl ⊢
  unfold readLine
  split
  · rename_i heq; simp only [List.cons.injEq] at heq; exact absurd heq.1 hc1
  · rename_i heq; simp only [List.cons.injEq] at heq; exact absurd heq.1 hc1
  · rename_i heq; simp only [List.cons.injEq] at heq; exact absurd heq.1 hc2
  · rw [hl, h2]
    simp [shownMessage]

/-- What a listing contains, in parts. -/
def partsOf (p : Template × Bytes) : List (List Char) × List (List (List Char) × List (List Char × List Char)) :=
  match p.1.trust, p.1.encoding, p.1.deprecation with
  | some tr, some en, some de => shownMessage p.1 p.2 tr en de
  | _, _, _ => ([], [])

theorem read_listing {ls : List (List Char)} {tis : List (Template × Bytes)} (h : Listing ls tis) (hw : ∀ p ∈ tis, WordNames p.1) :
    readListing ls = ⟨[], [], tis.map partsOf⟩ := by
  induction h with
  | nil => rfl
  | cons ls ls' t id ts hm _ ih =>
    have := ih (fun p hp => hw p (List.mem_cons_of_mem _ hp))
    unfold readListing at this ⊢
    rw [List.foldr_append, this]
    obtain ⟨tr, en, de, h1, h2, h3, h4⟩ := read_message hm (hw (t, id) List.mem_cons_self) ⟨[], [], ts.map partsOf⟩ rfl rfl
    rw [h4]
    simp [partsOf, h1, h2, h3]

theorem listing_complete {ls : List (List Char)} {tis : List (Template × Bytes)} (h : Listing ls tis) :
    ∀ p ∈ tis, ∃ tr en de, p.1.trust = some tr ∧ p.1.encoding = some en ∧ p.1.deprecation = some de := by
  induction h with
  | nil => intro p hp; cases hp
  | cons ls ls' t id ts hm _ ih =>
    intro p hp
    rcases List.mem_cons.mp hp with rfl | hp
    · obtain ⟨tr, en, de, h1, h2, h3, _⟩ := hm
      exact ⟨tr, en, de, h1, h2, h3⟩
    · exact ih p hp

theorem repr_inj {m n : Nat} (h : m.repr.toList = n.repr.toList) : m = n := by
  rw [Nat.toList_repr, Nat.toList_repr] at h
  have := congrArg (fun l => Nat.ofDigitChars 10 l 0) h
  simpa only [Nat.ofDigitChars_ten_toDigits] using this

theorem hexText_inj : ∀ {a b : Bytes}, hexText a = hexText b → a = b := by
  have key : ∀ m n : Fin 16, "0123456789ABCDEF".toList.getD m.val ' ' = "0123456789ABCDEF".toList.getD n.val ' ' → m = n := by decide +kernel
  intro a
  induction a with
  | nil => intro b h; cases b with
    | nil => rfl
    | cons y b => simp [hexText] at h
  | cons x a ih =>
    intro b h
    cases b with
    | nil => simp [hexText] at h
    | cons y b =>
      have h' : [_, _] ++ hexText a = [_, _] ++ hexText b := h
      simp only [List.cons_append, List.nil_append, List.cons.injEq] at h'
      obtain ⟨h1, h2, h3⟩ := h'
      have hx := x.toNat_lt
      have hy := y.toNat_lt
      have e1 := congrArg Fin.val (key ⟨x.toNat / 16, by omega⟩ ⟨y.toNat / 16, by omega⟩ h1)
      have e2 := congrArg Fin.val (key ⟨x.toNat % 16, by omega⟩ ⟨y.toNat % 16, by omega⟩ h2)
      simp only at e1 e2
      rw [ih h3, UInt8.toNat.inj (by omega : x.toNat = y.toNat)]

theorem toList_inj' {a b : String} (h : a.toList = b.toList) : a = b := by
  rw [← String.ofList_toList (s := a), ← String.ofList_toList (s := b), h]

theorem shownVar_inj {v v' : TVar} (h : shownVar v = shownVar v') : { v with size := 0 } = { v' with size := 0 } := by
  obtain ⟨n, ty, k⟩ := v
  obtain ⟨n', ty', k'⟩ := v'
  simp only [shownVar, Prod.mk.injEq] at h
  have h1 := toList_inj' h.1
  have h2 : ty = ty' := by
    have := h.2
    clear h h1
    revert this
    cases ty <;> cases ty' <;> first | (intro _; rfl) | decide +kernel
  subst h1 h2
  rfl

theorem map_inj_of {α β γ : Type} {f : α → β} {g : α → γ} (h : ∀ a b, f a = f b → g a = g b) :
    ∀ {l l' : List α}, l.map f = l'.map f → l.map g = l'.map g
  | [], [], _ => rfl
  | [], _ :: _, e => by simp at e
  | _ :: _, [], e => by simp at e
  | a :: l, b :: l', e => by
    simp only [List.map_cons, List.cons.injEq] at e ⊢
    exact ⟨h a b e.1, map_inj_of h e.2⟩

theorem shownBlock_inj {b b' : TBlock} (h : shownBlock b = shownBlock b') :
    { b with vars := b.vars.map fun (v : TVar) => ({ v with size := 0 } : TVar) } = { b' with vars := b'.vars.map fun (v : TVar) => ({ v with size := 0 } : TVar) } := by
  obtain ⟨n, ty, k, vs⟩ := b
  obtain ⟨n', ty', k', vs'⟩ := b'
  simp only [shownBlock, Prod.mk.injEq, List.cons.injEq, and_true] at h
  obtain ⟨⟨h1, h2, h3⟩, h4⟩ := h
  have h1 := toList_inj' h1
  have h3 := repr_inj h3
  have h4 := map_inj_of (fun a b => shownVar_inj) h4
  have h2 : ty = ty' := by
    clear h4 h3 h1
    revert h2
    cases ty <;> cases ty' <;> first | (intro _; rfl) | decide +kernel
  subst h1 h2 h3
  simp only [h4]

theorem parts_inj {p q : Template × Bytes} (hp : ∃ tr en de, p.1.trust = some tr ∧ p.1.encoding = some en ∧ p.1.deprecation = some de)
    (hq : ∃ tr en de, q.1.trust = some tr ∧ q.1.encoding = some en ∧ q.1.deprecation = some de)
    (h : partsOf p = partsOf q) : (withoutSizes p.1, p.2) = (withoutSizes q.1, q.2) := by
  obtain ⟨⟨n, f, k, hx, tr, en, de, bs⟩, id⟩ := p
  obtain ⟨⟨n', f', k', hx', tr', en', de', bs'⟩, id'⟩ := q
  obtain ⟨a, b, c, h1, h2, h3⟩ := hp
  obtain ⟨a', b', c', h1', h2', h3'⟩ := hq
  simp only at h1 h2 h3 h1' h2' h3'
  subst h1 h2 h3 h1' h2' h3'
  simp only [partsOf, shownMessage, Prod.mk.injEq, List.cons.injEq, and_true] at h
  obtain ⟨⟨g1, g2, g3, g4, g5, g6, g7⟩, g8⟩ := h
  have g1 := toList_inj' g1
  have g3 := repr_inj g3
  have g4 := hexText_inj g4
  have g8 := map_inj_of (fun a b => shownBlock_inj) g8
  have g2 : f = f' := by
    clear g1 g3 g4 g5 g6 g7 g8
    revert g2
    cases f <;> cases f' <;> first | (intro _; rfl) | decide +kernel
  have g5 : a = a' := by
    clear g1 g2 g3 g4 g6 g7 g8
    revert g5
    cases a <;> cases a' <;> first | (intro _; rfl) | decide +kernel
  have g6 : b = b' := by
    clear g1 g2 g3 g4 g5 g7 g8
    revert g6
    cases b <;> cases b' <;> first | (intro _; rfl) | decide +kernel
  have g7 : c = c' := by
    clear g1 g2 g3 g4 g5 g6 g8
    revert g7
    cases c <;> cases c' <;> first | (intro _; rfl) | decide +kernel
  subst g1 g2 g3 g4 g5 g6 g7
  simp only [withoutSizes, g8]

theorem listing_inj {ls : List (List Char)} {tis tis' : List (Template × Bytes)} (h : Listing ls tis) (h' : Listing ls tis')
    (hw : ∀ p ∈ tis, WordNames p.1) (hw' : ∀ p ∈ tis', WordNames p.1) :
    tis.map (fun p => (withoutSizes p.1, p.2)) = tis'.map (fun p => (withoutSizes p.1, p.2)) := by
  have h1 := read_listing h hw
  rw [read_listing h' hw'] at h1
  have h2 : tis'.map partsOf = tis.map partsOf := (Shown.mk.inj h1).2.2
  have c1 := listing_complete h
  have c2 := listing_complete h'
  clear h h' h1 hw hw'
  induction tis generalizing tis' with
  | nil => cases tis' with
    | nil => rfl
    | cons q l => simp at h2
  | cons p l ih =>
    cases tis' with
    | nil => simp at h2
    | cons q l' =>
      simp only [List.map_cons, List.cons.injEq] at h2 ⊢
      exact ⟨parts_inj (c1 p List.mem_cons_self) (c2 q List.mem_cons_self) h2.1.symm,
        ih h2.2 (fun x hx => c1 x (List.mem_cons_of_mem _ hx)) (fun x hx => c2 x (List.mem_cons_of_mem _ hx))⟩

/-! ## Unknown words -/

theorem mapM_except {α γ : Type} (g : α → Py γ) (P : α → Prop) (h : ∀ a, (P a ∧ g a = .error .typeError) ∨ (¬ P a ∧ ∃ c, g a = .ok c)) :
    ∀ l : List α, ((∃ a ∈ l, P a) ∧ l.mapM g = .error .typeError) ∨ ((¬ ∃ a ∈ l, P a) ∧ ∃ c, l.mapM g = .ok c)
  | [] => .inr ⟨by simp, [], rfl⟩
  | a :: l => by
    simp only [List.mapM_cons]
    rcases h a with ⟨h1, h2⟩ | ⟨h1, c, h2⟩
    · rw [h2]; exact .inl ⟨⟨a, List.mem_cons_self, h1⟩, rfl⟩
    · rw [h2]
      rcases mapM_except g P h l with ⟨⟨b, h3, h4⟩, h5⟩ | ⟨h3, d, h5⟩
      · rw [h5]; exact .inl ⟨⟨b, List.mem_cons_of_mem _ h3, h4⟩, rfl⟩
      · rw [h5]
        refine .inr ⟨?_, _, rfl⟩
        rintro ⟨b, hb, hP⟩
        rcases List.mem_cons.mp hb with e | hb
        · subst e; exact h1 hP
        · exact h3 ⟨b, hb, hP⟩

theorem typeAsString_cases (x : RawVar) : (x.type = none ∧ x.typeAsString = .error .typeError) ∨ (¬ x.type = none ∧ ∃ c, x.typeAsString = .ok c) := by
  unfold RawVar.typeAsString
  cases x.type with
  | none => exact .inl ⟨rfl, rfl⟩
  | some t => exact .inr ⟨nofun, _, rfl⟩

theorem printVar_cases (x : RawVar) : (x.type = none ∧ printVar x = .error .typeError) ∨ (¬ x.type = none ∧ ∃ c, printVar x = .ok c) := by
  unfold printVar
  rcases typeAsString_cases x with ⟨h1, h2⟩ | ⟨h1, c, h2⟩
  · rw [h2]; exact .inl ⟨h1, rfl⟩
  · rw [h2]; exact .inr ⟨h1, _, rfl⟩

theorem printBlock_cases (b : RawBlock) : ((∃ x ∈ b.vars, x.type = none) ∧ printBlock b = .error .typeError) ∨
    ((¬ ∃ x ∈ b.vars, x.type = none) ∧ ∃ c, printBlock b = .ok c) := by
  unfold printBlock
  have h := mapM_except printVar (·.type = none) printVar_cases b.vars.reverse
  simp only [List.mem_reverse] at h
  rcases h with ⟨h1, h2⟩ | ⟨h1, c, h2⟩
  · rw [h2]; exact .inl ⟨h1, rfl⟩
  · rw [h2]; exact .inr ⟨h1, _, rfl⟩

/-- Something of the template has no name. -/
def unnamed (t : RawTemplate) : Prop :=
  t.trust = none ∨ t.encoding = none ∨ t.deprecation = none ∨ ∃ b ∈ t.blocks, ∃ x ∈ b.vars, x.type = none

theorem printPacket_cases (t : RawTemplate) : (unnamed t ∧ printPacket t = .error .typeError) ∨ (¬ unnamed t ∧ ∃ c, printPacket t = .ok c) := by
  unfold printPacket unnamed
  cases h1 : t.trust with
  | none => exact .inl ⟨.inl rfl, rfl⟩
  | some tr =>
    cases h2 : t.encoding with
    | none => refine .inl ⟨.inr (.inl rfl), ?_⟩; rw [trust_shown]; rfl
    | some en =>
      cases h3 : t.deprecation with
      | none => refine .inl ⟨.inr (.inr (.inl rfl)), ?_⟩; rw [trust_shown, encoding_shown]; rfl
      | some de =>
        rw [trust_shown, encoding_shown, deprecation_shown]
        have h := mapM_except printBlock (fun b => ∃ x ∈ b.vars, x.type = none) printBlock_cases t.blocks.reverse
        simp only [List.mem_reverse] at h
        rcases h with ⟨h4, h5⟩ | ⟨h4, c, h5⟩
        · rw [h5]; exact .inl ⟨.inr (.inr (.inr h4)), rfl⟩
        · rw [h5]; exact .inr ⟨by simpa using h4, _, rfl⟩

theorem printList_cases (ts : List RawTemplate) : ((∃ t ∈ ts, unnamed t) ∧ printPacketList ts = .error .typeError) ∨
    ((¬ ∃ t ∈ ts, unnamed t) ∧ ∃ c, printPacketList ts = .ok c) := by
  unfold printPacketList
  rcases mapM_except printPacket unnamed printPacket_cases ts with ⟨h1, h2⟩ | ⟨h1, c, h2⟩
  · rw [h2]; exact .inl ⟨h1, rfl⟩
  · rw [h2]; exact .inr ⟨h1, _, rfl⟩

/-! ## All types -/

theorem strLt_iff : ∀ a b : List Char, strLt a b = true ↔ a < b
  | [], [] => by simp [strLt]
  | [], _ :: _ => by simp [strLt]
  | _ :: _, [] => by simp [strLt]
  | a :: as, b :: bs => by
    have ih := strLt_iff as bs
    have hlt : ∀ x y : Char, x < y ↔ x.toNat < y.toNat := fun x y => Iff.rfl
    have heq : a = b ↔ a.toNat = b.toNat := ⟨fun h => by rw [h], fun h => Char.toNat_inj.mp h⟩
    unfold strLt
    rw [List.cons_lt_cons_iff, hlt]
    by_cases h1 : a.toNat < b.toNat
    · simp [h1]
    · by_cases h2 : b.toNat < a.toNat
      · simp only [if_neg h1, if_pos h2]
        constructor
        · intro h; cases h
        · rintro (h | ⟨h, _⟩)
          · exact absurd h h1
          · rw [heq] at h; omega
      · have : a = b := heq.mpr (by omega)
        simp only [if_neg h1, if_neg h2, ih]
        constructor
        · intro h; exact .inr ⟨this, h⟩
        · rintro (h | ⟨_, h⟩)
          · exact absurd h h1
          · exact h

theorem insertStr_mem (s x : List Char) : ∀ l : List (List Char), x ∈ insertStr s l ↔ x = s ∨ x ∈ l
  | [] => by simp [insertStr]
  | y :: l => by
    unfold insertStr
    by_cases h1 : strLt s y = true
    · simp [h1]
    · by_cases h2 : strLt y s = true
      · rw [if_neg h1, if_pos h2, List.mem_cons, insertStr_mem s x l, List.mem_cons]
        constructor
        · rintro (h | h | h) <;> simp [h]
        · rintro (h | h | h) <;> simp [h]
      · rw [if_neg h1, if_neg h2]
        rw [strLt_iff] at h1 h2
        have : s = y := by
          rcases List.le_antisymm (List.not_lt.mp h2) (List.not_lt.mp h1) with rfl; rfl
        subst this
        simp

theorem insertStr_sorted (s : List Char) : ∀ l : List (List Char), l.Pairwise (· < ·) → (insertStr s l).Pairwise (· < ·)
  | [], _ => by simp [insertStr]
  | y :: l, h => by
    obtain ⟨h3, h4⟩ := List.pairwise_cons.mp h
    unfold insertStr
    by_cases h1 : strLt s y = true
    · rw [if_pos h1]
      have h1' := (strLt_iff _ _).mp h1
      refine List.pairwise_cons.mpr ⟨?_, h⟩
      intro z hz
      rcases List.mem_cons.mp hz with e | hz
      · subst e; exact h1'
      · exact List.lt_trans h1' (h3 z hz)
    · by_cases h2 : strLt y s = true
      · rw [if_neg h1, if_pos h2]
        refine List.pairwise_cons.mpr ⟨?_, insertStr_sorted s l h4⟩
        intro z hz
        rcases (insertStr_mem s z l).mp hz with e | hz
        · subst e; exact (strLt_iff _ _).mp h2
        · exact h3 z hz
      · rw [if_neg h1, if_neg h2]; exact h

theorem foldl_insert : ∀ (names l : List (List Char)), l.Pairwise (· < ·) →
    (names.foldl (fun l s => insertStr s l) l).Pairwise (· < ·) ∧ ∀ x, x ∈ names.foldl (fun l s => insertStr s l) l ↔ x ∈ names ∨ x ∈ l
  | [], l, h => ⟨h, by simp⟩
  | s :: names, l, h => by
    obtain ⟨h1, h2⟩ := foldl_insert names (insertStr s l) (insertStr_sorted s l h)
    refine ⟨h1, fun x => ?_⟩
    rw [List.foldl_cons, h2, insertStr_mem, List.mem_cons]
    constructor
    · rintro (h | h | h) <;> simp [h]
    · rintro ((h | h) | h) <;> simp [h]

theorem mapM_mem {α γ : Type} (g : α → Py γ) : ∀ (l : List α) (r : List γ), l.mapM g = .ok r → ∀ c, c ∈ r ↔ ∃ a ∈ l, g a = .ok c
  | [], r, h, c => by cases h; simp
  | a :: l, r, h, c => by
    simp only [List.mapM_cons] at h
    cases ha : g a with
    | error e => rw [ha] at h; cases h
    | ok x =>
      rw [ha] at h
      cases hl : l.mapM g with
      | error e => rw [hl] at h; cases h
      | ok xs =>
        rw [hl] at h
        cases h
        have := mapM_mem g l xs hl c
        simp only [List.mem_cons, this]
        constructor
        · rintro (h | ⟨b, h1, h2⟩)
          · subst h; exact ⟨a, .inl rfl, ha⟩
          · exact ⟨b, .inr h1, h2⟩
        · rintro ⟨b, h1 | h1, h2⟩
          · subst h1; rw [ha] at h2; cases h2; exact .inl rfl
          · exact .inr ⟨b, h1, h2⟩

theorem allTypes_cases (ts : List RawTemplate) :
    ((∃ t ∈ ts, ∃ b ∈ t.blocks, ∃ x ∈ b.vars, x.type = none) ∧ getAllTypes ts = .error .typeError) ∨
    ((¬ ∃ t ∈ ts, ∃ b ∈ t.blocks, ∃ x ∈ b.vars, x.type = none) ∧ ∃ l, getAllTypes ts = .ok l ∧ l.Pairwise (· < ·) ∧
      ∀ s, s ∈ l ↔ ∃ t ∈ ts, ∃ b ∈ t.blocks, ∃ x ∈ b.vars, ∃ ty, x.type = some ty ∧ s = (shownType ty).toList) := by
  unfold getAllTypes
  have hm : ∀ x, x ∈ ((ts.flatMap fun t => t.blocks.reverse).flatMap fun b => b.vars.reverse) ↔ ∃ t ∈ ts, ∃ b ∈ t.blocks, x ∈ b.vars := by
    intro x
    simp only [List.mem_flatMap, List.mem_reverse]
    constructor
    · rintro ⟨b, ⟨t, h1, h2⟩, h3⟩; exact ⟨t, h1, b, h2, h3⟩
    · rintro ⟨t, h1, b, h2, h3⟩; exact ⟨b, ⟨t, h1, h2⟩, h3⟩
  generalize ((ts.flatMap fun t => t.blocks.reverse).flatMap fun b => b.vars.reverse) = xs at hm
  have he : (∃ t ∈ ts, ∃ b ∈ t.blocks, ∃ x ∈ b.vars, x.type = none) ↔ ∃ x ∈ xs, x.type = none := by
    constructor
    · rintro ⟨t, h1, b, h2, x, h3, h4⟩; exact ⟨x, (hm x).mpr ⟨t, h1, b, h2, h3⟩, h4⟩
    · rintro ⟨x, h1, h4⟩
      obtain ⟨t, h1, b, h2, h3⟩ := (hm x).mp h1
      exact ⟨t, h1, b, h2, x, h3, h4⟩
  rw [he]
  rcases mapM_except RawVar.typeAsString (·.type = none) typeAsString_cases xs with ⟨h1, h2⟩ | ⟨h1, c, h2⟩
  · rw [h2]; exact .inl ⟨h1, rfl⟩
  · rw [h2]
    refine .inr ⟨h1, _, rfl, (foldl_insert c [] List.Pairwise.nil).1, fun s => ?_⟩
    rw [(foldl_insert c [] List.Pairwise.nil).2 s, mapM_mem _ _ _ h2]
    constructor
    · rintro (⟨x, h3, h4⟩ | h)
      · obtain ⟨t, h5, b, h6, h7⟩ := (hm x).mp h3
        unfold RawVar.typeAsString at h4
        cases hx : x.type with
        | none => rw [hx] at h4; cases h4
        | some ty => rw [hx] at h4; cases h4; exact ⟨t, h5, b, h6, x, h7, ty, hx, type_shown ty⟩
      · cases h
    · rintro ⟨t, h5, b, h6, x, h7, ty, hx, rfl⟩
      refine .inl ⟨x, (hm x).mpr ⟨t, h5, b, h6, h7⟩, ?_⟩
      unfold RawVar.typeAsString
      rw [hx]; exact congrArg _ (type_shown ty)

/-! ## Names and counts -/

theorem countOf_eq (ts : List RawTemplate) (f : Frequency) : countOf ts f = (ts.filter (fun t => t.freq = f)).length := by
  have key : ∀ (ts : List RawTemplate) (n : Nat), ts.foldl (fun n t => if t.freq = f then n + 1 else n) n = n + (ts.filter (fun t => t.freq = f)).length := by
    intro ts
    induction ts with
    | nil => intro n; rfl
    | cons t ts ih =>
      intro n
      rw [List.foldl_cons, ih]
      by_cases h : t.freq = f
      · simp [h]; omega
      · simp [h]
  exact (key ts 0).trans (Nat.zero_add _)

theorem namesFrom_eq (ts : List RawTemplate) : ∀ n, namesFrom n ts =
    (ts.zipIdx (n + 1)).flatMap (fun p => [List.replicate 81 '=', line [p.2.repr, p.1.name, shownFreq p.1.freq], List.replicate 81 '=']) := by
  induction ts with
  | nil => intro n; rfl
  | cons t ts ih =>
    intro n
    simp only [namesFrom, ih, List.zipIdx_cons, List.flatMap_cons, line, List.map_cons, List.map_nil, strNat_repr, freq_shown, ruleLine]
    simp [List.intercalate]

end Pyogp
