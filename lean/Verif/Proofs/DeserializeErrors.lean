import Verif.Spec.DeserializeErrors
import Verif.Proofs.Reading

/-! # Lemmas about the exceptions of `deserialize` -/

namespace Pyogp
open Spec

/-- Forget the attributes of exceptions. -/
def forgetE {α : Type} : Except DeserExc α → Py α
  | .ok a => .ok a
  | .error e => .error e.kind

def StopE.forget : StopE → Stop
  | .retNone => .retNone
  | .exc e => .exc e.kind

def forgetS {α : Type} : DecE α → Dec α
  | .ok a => .ok a
  | .error s => .error s.forget

theorem forgetE_bind {α β : Type} (x : Except DeserExc α) (f : α → Except DeserExc β) :
    forgetE (x >>= f) = forgetE x >>= fun a => forgetE (f a) := by cases x <;> rfl
theorem forgetS_bind {α β : Type} (x : DecE α) (f : α → DecE β) :
    forgetS (x >>= f) = forgetS x >>= fun a => forgetS (f a) := by cases x <;> rfl
theorem forgetS_ok {α : Type} (a : α) : forgetS (.ok a : DecE α) = .ok a := rfl
theorem forgetS_error {α : Type} (s : StopE) : forgetS (.error s : DecE α) = .error s.forget := rfl
theorem forgetS_liftE {α : Type} (x : Except DeserExc α) : forgetS (liftE x) = liftPy (forgetE x) := by cases x <;> rfl
theorem forgetE_plain {α : Type} (x : Py α) : forgetE (plainE x) = x := by cases x <;> rfl

theorem unpackData_forget (rt : Runtime) (data : Bytes) (ty : MsgType) (s? n? : Option Nat) (en? : Option Endian) :
    forgetE (unpackDataE rt data ty s? n? en?) = unpackData rt data ty s? n? en? := by
  unfold unpackDataE unpackData
  generalize unpackerTable ty = p
  obtain ⟨en, c⟩ := p
  simp only
  generalize c.unpack rt (en?.getD en) (selectBytes data ty s? n?) = r
  cases r with
  | ok v => rfl
  | error e => cases e <;> rfl

theorem unpackInt_forget (rt : Runtime) (data : Bytes) (ty : MsgType) (s : Nat) (en? : Option Endian) :
    forgetE (unpackIntE rt data ty s en?) = unpackInt rt data ty s en? := by
  unfold unpackIntE unpackInt
  rw [forgetE_bind, unpackData_forget]
  congr 1
  funext v
  cases v with
  | num n => cases n <;> rfl
  | _ => rfl

theorem decodeSize_forget (rt : Runtime) (data : Bytes) (v : TVar) (pos : Nat) : forgetS (decodeSizeE rt data v pos) = decodeSize rt data v pos := by
  unfold decodeSizeE decodeSize
  split
  · split
    · rfl
    · split
      · rw [forgetS_bind, forgetS_liftE, unpackInt_forget]; rfl
      · split
        · rw [forgetS_bind, forgetS_liftE, unpackInt_forget]; rfl
        · split
          · rw [forgetS_bind, forgetS_liftE, unpackInt_forget]; rfl
          · rfl
  · rfl

theorem decodeVar_forget (rt : Runtime) (data : Bytes) (v : TVar) (pos : Nat) : forgetS (decodeVarE rt data v pos) = decodeVar rt data v pos := by
  unfold decodeVarE decodeVar
  rw [forgetS_bind, decodeSize_forget]
  congr 1
  funext sp
  split
  · rfl
  · rw [forgetS_bind, forgetS_liftE, unpackData_forget]; rfl

theorem decodeVars_forget (rt : Runtime) (data : Bytes) : ∀ (vs : List TVar) (pos : Nat) (blk : BlockData),
    forgetS (decodeVarsE rt data vs pos blk) = decodeVars rt data vs pos blk
  | [], _, _ => rfl
  | v :: vs, pos, blk => by
    simp only [decodeVarsE, decodeVars]
    rw [forgetS_bind, decodeVar_forget]
    congr 1
    funext r
    exact decodeVars_forget rt data vs _ _

theorem decodeInstances_forget (rt : Runtime) (data : Bytes) (tb : TBlock) : ∀ (n i pos : Nat) (blocks : Dict String (List BlockData)),
    forgetS (decodeInstancesE rt data tb n i pos blocks) = decodeInstances rt data tb n i pos blocks
  | 0, _, _, _ => rfl
  | n + 1, i, pos, blocks => by
    simp only [decodeInstancesE, decodeInstances]
    rw [forgetS_bind, decodeVars_forget]
    congr 1
    funext r
    exact decodeInstances_forget rt data tb n _ _ _

theorem decodeCount_forget (rt : Runtime) (data : Bytes) (tb : TBlock) (pos : Nat) :
    forgetS (decodeCountE rt data tb pos) = decodeCount rt data tb pos := by
  unfold decodeCountE decodeCount
  cases tb.blockType with
  | «variable» => simp only; rw [forgetS_bind, forgetS_liftE, unpackInt_forget]; rfl
  | _ => rfl

theorem decodeBlocks_forget (rt : Runtime) (data : Bytes) : ∀ (tbs : List TBlock) (pos : Nat) (blocks : Dict String (List BlockData)),
    forgetS (decodeBlocksE rt data tbs pos blocks) = decodeBlocks rt data tbs pos blocks
  | [], _, _ => rfl
  | tb :: tbs, pos, blocks => by
    simp only [decodeBlocksE, decodeBlocks]
    rw [forgetS_bind, decodeCount_forget]
    congr 1
    funext c
    rw [forgetS_bind, decodeInstances_forget]
    congr 1
    funext r
    exact decodeBlocks_forget rt data tbs _ _

theorem decodeAcks_forget (rt : Runtime) (data : Bytes) : ∀ (n pos : Nat) (m : Message),
    forgetS (decodeAcksE rt data n pos m) = decodeAcks rt data n pos m
  | 0, _, _ => rfl
  | n + 1, pos, m => by
    simp only [decodeAcksE, decodeAcks]
    rw [forgetS_bind, forgetS_liftE, unpackInt_forget]
    congr 1
    funext a
    exact decodeAcks_forget rt data n _ _

theorem decodeAckPart_forget (rt : Runtime) (data : Bytes) (m : Message) : forgetS (decodeAckPartE rt data m) = decodeAckPart rt data m := by
  unfold decodeAckPartE decodeAckPart
  split
  · rw [forgetS_bind, forgetS_liftE, unpackInt_forget]
    congr 1
    funext a
    exact decodeAcks_forget rt _ _ _ _
  · rfl

theorem decodeData_forget (rt : Runtime) (t? : Option Template) (data : Bytes) : forgetS (decodeDataE rt t? data) = decodeData rt t? data := by
  unfold decodeDataE decodeData
  cases t? with
  | none => rfl
  | some t =>
    simp only [ok_bind]
    rw [forgetS_bind, forgetS_liftE, forgetE_plain]
    congr 1
    funext flags
    rw [forgetS_bind, forgetS_liftE, unpackInt_forget]
    congr 1
    funext pid
    rw [forgetS_bind, decodeAckPart_forget]
    congr 1
    funext m
    rw [forgetS_bind, forgetS_liftE, unpackInt_forget]
    congr 1
    funext off
    rw [forgetS_bind, decodeBlocks_forget]
    congr 1
    funext r
    split <;> rfl

theorem runDecode_forget (rt : Runtime) (name : String) (t? : Option Template) (data : Bytes) :
    forgetE (runDecodeE rt name t? data) = runDecode rt t? data := by
  unfold runDecodeE runDecode
  rw [← decodeData_forget]
  cases decodeDataE rt t? data with
  | ok m => rfl
  | error s =>
    cases s with
    | retNone => rfl
    | exc e =>
      simp only [forgetS_error, StopE.forget]
      by_cases he : e.kind = .dataUnpacking
      · rw [if_pos he, he]; rfl
      · rw [if_neg he]
        simp only [forgetE]

theorem deserialize_forget (env : DeserEnv) (st : DeserState) (dg : Bytes) :
    (forgetE (deserializeE env st dg).1, (deserializeE env st dg).2) = deserialize env st dg := by
  unfold deserializeE deserialize
  cases stripAcks dg with
  | error e => rfl
  | ok p =>
    obtain ⟨buf, acks⟩ := p
    simp only
    cases expandPacket buf with
    | error e => rfl
    | ok buf =>
      simp only
      unfold deserializeRestE deserializeRest decodeTemplateE decodeTemplate
      by_cases hl : buf.length ≤ 6
      · rw [if_pos hl, if_pos hl]; rfl
      · rw [if_neg hl, if_neg hl]
        cases decodeHeader env.dict (slice buf 6 12) with
        | error e => rfl
        | ok t? =>
          cases t? with
          | none => rfl
          | some t =>
            simp only [Option.isSome]
            refine Prod.ext ?_ rfl
            simp only
            rw [forgetE_bind, forgetE_plain]
            congr 1
            funext name
            rw [forgetE_bind, forgetE_plain]
            congr 1
            funext allowed
            split
            · rfl
            · rw [forgetE_bind, forgetE_plain]
              congr 1
              funext want
              split
              · exact runDecode_forget ..
              · rfl

/-! ## Exceptions inside the body -/

theorem decodeVarE_exc {rt : Runtime} {data : Bytes} {v : TVar} (hv : WFVar v) {pos : Nat} {e : DeserExc} :
    decodeVarE rt data v pos ≠ .error (.exc e) := by
  intro h
  have hf := decodeVar_forget rt data v pos
  rw [h, forgetS_error] at hf
  rcases field_cases rt hv (data.drop pos) with ⟨raw, post, x, hd, hx⟩ | hs
  · rw [decodeVar_at hv hd hx] at hf; cases hf
  · rw [decodeVar_short hv hs] at hf; cases hf

theorem decodeVarsE_exc {rt : Runtime} {data : Bytes} : ∀ {vs : List TVar} {pos : Nat} {blk : BlockData} {e : DeserExc}, (∀ v ∈ vs, WFVar v) →
    decodeVarsE rt data vs pos blk ≠ .error (.exc e)
  | [], _, _, _, _, h => by cases h
  | v :: vs, pos, blk, e, hw, h => by
    simp only [decodeVarsE] at h
    cases hd : decodeVarE rt data v pos with
    | error s =>
      rw [hd] at h
      cases h
      exact decodeVarE_exc (hw v List.mem_cons_self) hd
    | ok r =>
      rw [hd, ok_bind] at h
      exact decodeVarsE_exc (fun u hu => hw u (List.mem_cons_of_mem _ hu)) h

theorem decodeInstancesE_exc {rt : Runtime} {data : Bytes} {tb : TBlock} (hw : ∀ v ∈ tb.vars, WFVar v) : ∀ {n i pos : Nat}
    {blocks : Dict String (List BlockData)} {e : DeserExc}, decodeInstancesE rt data tb n i pos blocks ≠ .error (.exc e)
  | 0, _, _, _, _, h => by cases h
  | n + 1, i, pos, blocks, e, h => by
    simp only [decodeInstancesE] at h
    cases hd : decodeVarsE rt data tb.vars pos { BlockData.new tb.name with number := i } with
    | error s =>
      rw [hd] at h
      cases h
      exact decodeVarsE_exc hw hd
    | ok r =>
      rw [hd, ok_bind] at h
      exact decodeInstancesE_exc hw h

theorem decodeCountE_exc {rt : Runtime} {data : Bytes} {tb : TBlock} {pos : Nat} {e : DeserExc} (h : decodeCountE rt data tb pos = .error (.exc e)) :
    e = .unpacking [] := by
  unfold decodeCountE at h
  cases hb : tb.blockType with
  | single => rw [hb] at h; cases h
  | multiple => rw [hb] at h; cases h
  | unknown => rw [hb] at h; cases h
  | «variable» =>
    rw [hb] at h
    simp only at h
    have hsel : selectBytes data .u8 (some pos) none = (data.drop pos).take 1 := by
      have : selectBytes data .u8 (some pos) none = slice data pos (pos + 1) := rfl
      rw [this, slice]; simp
    cases hd : data.drop pos with
    | nil =>
      rw [hd] at hsel
      have : unpackIntE rt data .u8 pos = .error (.unpacking []) := by
        simp only [unpackIntE, unpackDataE, hsel]
        rfl
      rw [this] at h
      cases h; rfl
    | cons a r =>
      exfalso
      have hu := unpackInt_at (rt := rt) (ty := .u8) (by rfl) (by rfl) (show data.drop pos = [a] ++ r from hd) rfl
        (structUnpack_unsigned_ok (d := .big) (f := .B) rfl rfl)
      rw [← unpackInt_forget] at hu
      cases hx : unpackIntE rt data .u8 pos with
      | ok x => rw [hx] at h; cases h
      | error x => rw [hx] at hu; cases hu

theorem decodeBlocksE_exc {rt : Runtime} {data : Bytes} : ∀ {tbs : List TBlock} {pos : Nat} {blocks : Dict String (List BlockData)} {e : DeserExc},
    (∀ tb ∈ tbs, ∀ v ∈ tb.vars, WFVar v) → decodeBlocksE rt data tbs pos blocks = .error (.exc e) → e = .unpacking []
  | [], _, _, _, _, h => by cases h
  | tb :: tbs, pos, blocks, e, hw, h => by
    simp only [decodeBlocksE] at h
    cases hc : decodeCountE rt data tb pos with
    | error s =>
      rw [hc] at h
      cases h
      exact decodeCountE_exc hc
    | ok c =>
      rw [hc, ok_bind] at h
      cases hi : decodeInstancesE rt data tb c.1 0 c.2 blocks with
      | error s =>
        rw [hi] at h
        cases h
        exact absurd hi (decodeInstancesE_exc (hw tb List.mem_cons_self))
      | ok r =>
        rw [hi, ok_bind] at h
        exact decodeBlocksE_exc (fun u hu => hw u (List.mem_cons_of_mem _ hu)) h

end Pyogp
