import Verif.Model.Header
import Verif.Lemmas.Params

/-! What the 19 typed messages have in common. Each of them is shown to be an instance of `Codec`
in `Verif.Lemmas.MsgInst`; the lemmas here are proved once for all. -/

namespace M3

theorem bind_assoc_res {α β γ : Type} (x : Res α) (f : α → Res β) (g : β → Res γ) :
    (x >>= f >>= g) = (x >>= fun a => f a >>= g) := by cases x <;> rfl

/-! ### Header -/

namespace Header

/-- The eight header bytes. -/
def head (h : Header) : Bytes := [h.version, h.reserved, h.cls, h.typ] ++ u32bytes h.length

@[simp] theorem head_length (h : Header) : h.head.length = 8 := by simp [head]

theorem writeAt_step {m m' : Bytes} {o k : Nat} {x : Bytes} (y : Bytes) (hm : m' = writeAt m o x)
    (hk : k = x.length) (hl : o + x.length + y.length ≤ m.length) :
    writeAt m' (o + k) y = writeAt m o (x ++ y) := by
  subst hm hk; exact writeAt_writeAt m o x y hl

theorem marshalTo_eq (h : Header) (b : Slice) (hb : b.WF) :
    h.marshalTo b = if b.len < h.marshalLen then .err .msgTooShortToMarshal
      else .ok (writeAt b.mem b.off (h.head ++ h.payload)) := by
  unfold marshalTo
  split
  · rfl
  · rename_i hlen
    have hwf : b.off + b.len ≤ b.mem.length := hb
    have hml : h.marshalLen = 8 + h.payload.length := rfl
    have hb8 : 8 + h.payload.length ≤ b.len := by omega
    have w1 : writeAt (writeAt b.mem b.off [h.version]) (b.off + 1) [h.reserved]
        = writeAt b.mem b.off ([h.version] ++ [h.reserved]) :=
      writeAt_step _ rfl rfl (by simp; omega)
    have w2 : writeAt (writeAt b.mem b.off ([h.version] ++ [h.reserved])) (b.off + 2) [h.cls]
        = writeAt b.mem b.off ([h.version] ++ [h.reserved] ++ [h.cls]) :=
      writeAt_step _ rfl rfl (by simp; omega)
    have w3 : writeAt (writeAt b.mem b.off ([h.version] ++ [h.reserved] ++ [h.cls])) (b.off + 3) [h.typ]
        = writeAt b.mem b.off ([h.version] ++ [h.reserved] ++ [h.cls] ++ [h.typ]) :=
      writeAt_step _ rfl rfl (by simp; omega)
    have w4 : writeAt (writeAt b.mem b.off ([h.version] ++ [h.reserved] ++ [h.cls] ++ [h.typ]))
          (b.off + 4) (u32bytes h.length)
        = writeAt b.mem b.off ([h.version] ++ [h.reserved] ++ [h.cls] ++ [h.typ] ++ u32bytes h.length) :=
      writeAt_step _ rfl rfl (by simp; omega)
    have w5 : writeAt (writeAt b.mem b.off
          ([h.version] ++ [h.reserved] ++ [h.cls] ++ [h.typ] ++ u32bytes h.length)) (b.off + 8) h.payload
        = writeAt b.mem b.off
          ([h.version] ++ [h.reserved] ++ [h.cls] ++ [h.typ] ++ u32bytes h.length ++ h.payload) :=
      writeAt_step _ rfl (by simp) (by simp; omega)
    have l4 : (writeAt b.mem b.off ([h.version] ++ [h.reserved] ++ [h.cls] ++ [h.typ])).length
        = b.mem.length := writeAt_length _ _ _ (by simp; omega)
    have l5 : (writeAt b.mem b.off ([h.version] ++ [h.reserved] ++ [h.cls] ++ [h.typ]
        ++ u32bytes h.length)).length = b.mem.length := writeAt_length _ _ _ (by simp; omega)
    simp only [Slice.set]
    rw [if_pos (by omega)]
    simp only [Res.bind_ok, Nat.add_zero]
    rw [if_pos (by omega)]
    simp only [Res.bind_ok, w1]
    rw [if_pos (by omega)]
    simp only [Res.bind_ok, w2]
    rw [if_pos (by omega)]
    simp only [Res.bind_ok, w3]
    rw [Slice.sub, if_pos ⟨by omega, by simp only [Slice.cap, l4]; omega⟩]
    simp only [Res.bind_ok, putUint32]
    rw [if_pos (by omega)]
    simp only [Res.bind_ok, w4]
    rw [Slice.sub, if_pos ⟨by omega, by simp only [Slice.cap, l5]; omega⟩]
    simp only [Res.bind_ok, Res.pure_eq, Slice.copy]
    rw [List.take_of_length_le (by omega), w5]
    simp [head]

theorem marshalBinary_eq (h : Header) : h.marshalBinary = .ok (h.head ++ h.payload) := by
  show (h.marshalTo (Slice.make h.marshalLen) >>= fun m =>
    Res.ok { Slice.make h.marshalLen with mem := m }.bytes) = _
  rw [marshalTo_eq _ _ (by simp [Slice.WF, Slice.make])]
  rw [if_neg (by simp [Slice.make])]
  simp only [Res.bind_ok, Slice.make, Slice.bytes]
  rw [Param.writeAt_replicate_zero]
  simp only [marshalLen, List.drop_zero]
  rw [List.take_of_length_le (by simp)]
  simp

theorem parse_short (b : Bytes) (h : b.length < 8) : parse b = .err .msgTooShortToParse := by
  simp [parse, h]

theorem eight_split (b : Bytes) (h : 8 ≤ b.length) :
    ∃ b0 b1 b2 b3 b4 b5 b6 b7 d, b = b0 :: b1 :: b2 :: b3 :: b4 :: b5 :: b6 :: b7 :: d := by
  match b, h with
  | b0 :: b1 :: b2 :: b3 :: b4 :: b5 :: b6 :: b7 :: d, _ => exact ⟨b0, b1, b2, b3, b4, b5, b6, b7, d, rfl⟩

theorem parse_cons (b0 b1 b2 b3 b4 b5 b6 b7 : UInt8) (d : Bytes) :
    parse (b0 :: b1 :: b2 :: b3 :: b4 :: b5 :: b6 :: b7 :: d) =
      .ok ⟨b0, b1, b2, b3,
        b7.toUInt32 ||| (b6.toUInt32 <<< 8) ||| (b5.toUInt32 <<< 16) ||| (b4.toUInt32 <<< 24), d⟩ := by
  simp [parse, rindex, rsub, getUint32]

theorem parse_head (h : Header) (d : Bytes) : parse (h.head ++ d) = .ok { h with payload := d } := by
  have := getUint32_u32bytes h.length []
  simp only [u32bytes, getUint32, List.cons_append, List.nil_append, Res.ok.injEq] at this
  simp only [head, u32bytes, List.cons_append, List.nil_append, parse_cons, this]

theorem parse_total (b : Bytes) :
    (b.length < 8 ∧ parse b = .err .msgTooShortToParse) ∨
      (8 ≤ b.length ∧ ∃ h, parse b = .ok h ∧ b = h.head ++ h.payload) := by
  by_cases hb : b.length < 8
  · exact .inl ⟨hb, parse_short b hb⟩
  · obtain ⟨b0, b1, b2, b3, b4, b5, b6, b7, d, rfl⟩ := eight_split b (by omega)
    refine .inr ⟨by simp, _, parse_cons .., ?_⟩
    simp [head, u32bytes_get]

end Header

/-! ### Writing a list of optional parameters -/

/-- The parameters that are present. -/
def present (fs : List (Option Param)) : List Param := fs.filterMap id

@[simp] theorem present_nil : present [] = [] := rfl
@[simp] theorem present_none (fs : List (Option Param)) : present (none :: fs) = present fs := rfl
@[simp] theorem present_some (p : Param) (fs : List (Option Param)) :
    present (some p :: fs) = p :: present fs := rfl

/-- The bytes of the parameters that are present. -/
def body (fs : List (Option Param)) : Bytes := (present fs).flatMap Param.encode

@[simp] theorem body_nil : body [] = [] := rfl
@[simp] theorem body_none (fs : List (Option Param)) : body (none :: fs) = body fs := rfl
@[simp] theorem body_some (p : Param) (fs : List (Option Param)) :
    body (some p :: fs) = p.encode ++ body fs := rfl

/-- `putParam` for each element of a list. -/
def putParams (payload : Slice) (offset : Nat) : List (Option Param) → Res (Slice × Nat)
  | [] => .ok (payload, offset)
  | o :: fs => do
    let (payload, offset) ← putParam payload offset o
    putParams payload offset fs

theorem putParams_eq (fs : List (Option Param)) : ∀ (pre : Bytes) (n : Nat), (body fs).length ≤ n →
    putParams ⟨pre ++ List.replicate n 0, 0, pre.length + n⟩ pre.length fs =
      .ok (⟨pre ++ body fs ++ List.replicate (n - (body fs).length) 0, 0, pre.length + n⟩,
        pre.length + (body fs).length) := by
  induction fs with
  | nil => intro pre n _; simp [putParams]
  | cons o fs ih =>
    intro pre n hn
    cases o with
    | none => simpa [putParams, putParam] using ih pre n (by simpa using hn)
    | some p =>
      have hml : p.encode.length = p.marshalLen := p.encode_length
      simp only [body_some, List.length_append] at hn
      have hw : writeAt (pre ++ List.replicate n 0) pre.length p.head
          = (pre ++ p.encode) ++ List.replicate (n - p.encode.length) 0 := by
        have h1 := writeAt_append_left pre (List.replicate p.head.length 0)
          (List.replicate (n - p.head.length) 0) p.head (by simp)
        have hhl : p.head.length ≤ p.encode.length := by simp [Param.encode]
        have e1 : pre ++ List.replicate p.head.length (0 : UInt8) ++ List.replicate (n - p.head.length) 0
            = pre ++ List.replicate n 0 := by
          rw [List.append_assoc, List.replicate_append_replicate]; congr 2; omega
        rw [e1] at h1
        rw [h1, Param.encode]
        have e2 : n - p.head.length = Spec.pad p.data.length + (n - p.encode.length) := by
          simp only [Param.encode, List.length_append, List.length_replicate] at hn ⊢
          omega
        rw [e2, ← List.replicate_append_replicate]
        simp [Param.encode]
      have step : putParam ⟨pre ++ List.replicate n 0, 0, pre.length + n⟩ pre.length (some p)
          = .ok (⟨(pre ++ p.encode) ++ List.replicate (n - p.encode.length) 0, 0, pre.length + n⟩,
              pre.length + p.encode.length) := by
        simp only [putParam, Slice.from']
        rw [if_pos (by omega)]
        simp only [Res.bind_ok, Param.marshalTo_eq]
        rw [if_pos (by simp [Slice.cap]; omega)]
        simp only [Res.bind_ok, Res.pure_eq, Nat.zero_add, hw, hml]
      have := ih (pre ++ p.encode) (n - p.encode.length) (by omega)
      simp only [List.length_append] at this
      have el : pre.length + p.encode.length + (n - p.encode.length) = pre.length + n := by omega
      rw [el] at this
      simp only [putParams, step, Res.bind_ok, this]
      simp only [body_some, List.append_assoc, List.length_append, Nat.sub_sub, Nat.add_assoc]

theorem putParams_make (fs : List (Option Param)) :
    putParams (Slice.make (body fs).length) 0 fs =
      .ok (⟨body fs, 0, (body fs).length⟩, (body fs).length) := by
  have := putParams_eq fs [] (body fs).length (Nat.le_refl _)
  simpa [Slice.make] using this

theorem foldl_addLen (fs : List (Option Param)) : ∀ l, fs.foldl addLen l = l + (body fs).length := by
  induction fs with
  | nil => intro l; rfl
  | cons o fs ih =>
    intro l
    cases o with
    | none => simpa [addLen] using ih l
    | some p => simp [addLen, ih, p.encode_length]; omega

/-! ### Storing received parameters -/

/-- Position of a tag in a list of tags. -/
def tagIdx : List UInt16 → UInt16 → Option Nat
  | [], _ => none
  | a :: ts, t => if t = a then some 0 else (tagIdx ts t).map (· + 1)

theorem tagIdx_eq_none {ts : List UInt16} {t : UInt16} : tagIdx ts t = none ↔ t ∉ ts := by
  induction ts with
  | nil => simp [tagIdx]
  | cons a ts ih => simp only [tagIdx]; split <;> simp_all

theorem tagIdx_get {ts : List UInt16} {t : UInt16} {i : Nat} (h : tagIdx ts t = some i) :
    ts[i]? = some t := by
  induction ts generalizing i with
  | nil => simp [tagIdx] at h
  | cons a ts ih =>
    simp only [tagIdx] at h
    split at h
    · cases h; simp_all
    · cases h' : tagIdx ts t with
      | none => simp [h'] at h
      | some j => simp [h'] at h; subst h; simpa using ih h'

/-- The last parameter with a given tag. -/
def lastWith (t : UInt16) (ps : List Param) : Option Param := (ps.filter (·.tag = t)).getLast?

@[simp] theorem lastWith_nil (t : UInt16) : lastWith t [] = none := rfl

theorem lastWith_cons (t : UInt16) (p : Param) (ps : List Param) :
    lastWith t (p :: ps) = (lastWith t ps).or (if p.tag = t then some p else none) := by
  unfold lastWith
  rw [List.filter_cons]
  by_cases h : p.tag = t
  · simp only [h, decide_true, if_true, List.getLast?_cons]
    cases (ps.filter (·.tag = t)).getLast? <;> rfl
  · simp [h]

/-- A message type with a header and a fixed list of optional parameters. -/
class Codec (M : Type) where
  tags : List UInt16
  bad : Err
  hdr : M → Header
  setHdr : M → Header → M
  flds : M → List (Option Param)
  setFld : M → Nat → Param → M
  aux : M → Option Param
  zero : M
  marshalLen : M → Nat
  marshalTo : M → Slice → Res (M × Bytes)
  marshalBinary : M → Res (M × Bytes)
  setParam : M → Param → Res M
  setParams : M → List Param → Res M
  unmarshalBinary : M → Bytes → Res M
  ext : ∀ a b : M, hdr a = hdr b → flds a = flds b → aux a = aux b → a = b
  tags_nodup : tags.Nodup
  flds_length : ∀ m, (flds m).length = tags.length
  hdr_setHdr : ∀ m h, hdr (setHdr m h) = h
  flds_setHdr : ∀ m h, flds (setHdr m h) = flds m
  aux_setHdr : ∀ m h, aux (setHdr m h) = aux m
  hdr_setFld : ∀ m i p, hdr (setFld m i p) = hdr m
  flds_setFld : ∀ m i p, flds (setFld m i p) = (flds m).set i (some p)
  aux_setFld : ∀ m i p, aux (setFld m i p) = aux m
  flds_zero : flds zero = tags.map (fun _ => none)
  aux_zero : aux zero = none
  marshalLen_eq : ∀ m, marshalLen m = (flds m).foldl addLen 8
  marshalTo_eq : ∀ m b, marshalTo m b =
    if b.len < marshalLen m then .err .msgTooShortToMarshal else
    putParams (Slice.make (marshalLen m - 8)) 0 (flds m) >>= fun r =>
    (hdr (setHdr m { hdr m with payload := r.1.bytes })).marshalTo b >>= fun mem =>
    .ok (setHdr m { hdr m with payload := r.1.bytes }, mem)
  marshalBinary_eq : ∀ m, marshalBinary m =
    (marshalTo m (Slice.make (marshalLen m)) >>= fun r =>
      .ok (r.1, { (Slice.make (marshalLen m)) with mem := r.2 }.bytes))
  setParam_eq : ∀ m p, setParam m p =
    match tagIdx tags p.tag with
    | some i => .ok (setFld m i p)
    | none => .err bad
  setParams_nil : ∀ m, setParams m [] = .ok m
  setParams_cons : ∀ m p ps, setParams m (p :: ps) = (setParam m p >>= fun m => setParams m ps)
  unmarshalBinary_eq : ∀ m b, unmarshalBinary m b =
    (Header.parse b >>= fun h => parseMultiParams h.payload >>= fun prs =>
      setParams (setHdr m h) prs)

namespace Codec

variable {M : Type} [Codec M]

theorem marshalLen_body (m : M) : marshalLen m = 8 + (body (flds m)).length := by
  rw [marshalLen_eq, foldl_addLen]

theorem marshalTo_exact (m : M) (b : Slice) (hb : b.WF) : marshalTo m b =
    if b.len < marshalLen m then .err .msgTooShortToMarshal else
    .ok (setHdr m { hdr m with payload := body (flds m) },
      writeAt b.mem b.off ((hdr m).head ++ body (flds m))) := by
  rw [marshalTo_eq]
  split
  · rfl
  · rename_i h
    have hl : marshalLen m - 8 = (body (flds m)).length := by rw [marshalLen_body]; omega
    rw [hl, putParams_make]
    simp only [Res.bind_ok, hdr_setHdr, Slice.bytes, List.drop_zero, List.take_length]
    rw [Header.marshalTo_eq _ _ hb, if_neg]
    · rfl
    · simp only [Header.marshalLen]; rw [marshalLen_body] at h; exact h

theorem marshalBinary_exact (m : M) : marshalBinary m =
    .ok (setHdr m { hdr m with payload := body (flds m) }, (hdr m).head ++ body (flds m)) := by
  rw [marshalBinary_eq, marshalTo_exact _ _ (by simp [Slice.WF, Slice.make]),
    if_neg (by simp [Slice.make])]
  simp only [Res.bind_ok, Slice.make, Slice.bytes]
  rw [Param.writeAt_replicate_zero, marshalLen_body, List.drop_zero, List.take_of_length_le (by simp)]
  simp

/-- Result of storing parameters whose tags are all known. -/
def store (m : M) (ps : List Param) : M :=
  ps.foldl (fun m p => match tagIdx (tags M) p.tag with
    | some i => setFld m i p
    | none => m) m

theorem setParams_exact (m : M) (ps : List Param) : setParams m ps =
    if ∀ p ∈ ps, p.tag ∈ tags M then .ok (store m ps) else .err (bad M) := by
  induction ps generalizing m with
  | nil => simp [setParams_nil, store]
  | cons p ps ih =>
    rw [setParams_cons, setParam_eq]
    by_cases hp : p.tag ∈ tags M
    · cases hi : tagIdx (tags M) p.tag with
      | none => exact absurd hp (tagIdx_eq_none.mp hi)
      | some i =>
        simp only [Res.bind_ok, ih, store, List.foldl_cons, hi, List.mem_cons, forall_eq_or_imp, hp,
          true_and]
    · have hi := tagIdx_eq_none.mpr hp
      simp only [hi, Res.bind_err]
      rw [if_neg]
      intro h
      exact hp (h p (by simp))

theorem hdr_store (m : M) (ps : List Param) : hdr (store m ps) = hdr m := by
  induction ps generalizing m with
  | nil => rfl
  | cons p ps ih =>
    have : store m (p :: ps) = store (match tagIdx (tags M) p.tag with
      | some i => setFld m i p
      | none => m) ps := rfl
    rw [this, ih]
    split
    · rw [hdr_setFld]
    · rfl

theorem aux_store (m : M) (ps : List Param) : aux (store m ps) = aux m := by
  induction ps generalizing m with
  | nil => rfl
  | cons p ps ih =>
    have : store m (p :: ps) = store (match tagIdx (tags M) p.tag with
      | some i => setFld m i p
      | none => m) ps := rfl
    rw [this, ih]
    split
    · rw [aux_setFld]
    · rfl

/-- After storing, the slot of tag `t` holds the last parameter with that tag, or its old value. -/
theorem flds_store (m : M) (ps : List Param) (i : Nat) (t : UInt16) (ht : (tags M)[i]? = some t) :
    (flds (store m ps))[i]? = some ((lastWith t ps).or ((flds m)[i]?.getD none)) := by
  induction ps generalizing m with
  | nil =>
    simp only [store, List.foldl_nil, lastWith_nil, Option.none_or]
    have hi : i < (tags M).length := (List.getElem?_eq_some_iff.mp ht).1
    rw [List.getElem?_eq_getElem (by rw [flds_length]; exact hi)]
    rfl
  | cons p ps ih =>
    have e : store m (p :: ps) = store (match tagIdx (tags M) p.tag with
      | some i => setFld m i p
      | none => m) ps := rfl
    rw [e, ih, lastWith_cons]
    have hi : i < (flds m).length := by
      rw [flds_length]; exact (List.getElem?_eq_some_iff.mp ht).1
    congr 1
    cases lastWith t ps with
    | some q => rfl
    | none =>
      simp only [Option.none_or]
      by_cases hpt : p.tag = t
      · rw [if_pos hpt]
        cases hj : tagIdx (tags M) p.tag with
        | none =>
          have := tagIdx_eq_none.mp hj
          rw [hpt] at this
          exact absurd (List.mem_of_getElem? ht) this
        | some j =>
          have hjt := tagIdx_get hj
          have hij : j = i := by
            rw [hpt] at hjt
            have hj' := (List.getElem?_eq_some_iff.mp hjt).1
            exact (List.getElem?_inj hj' tags_nodup).mp (by rw [hjt, ht])
          subst hij
          simp [flds_setFld, hi]
      · rw [if_neg hpt]
        simp only [Option.none_or]
        cases hj : tagIdx (tags M) p.tag with
        | none => rfl
        | some j =>
          have hjt := tagIdx_get hj
          have hij : j ≠ i := by
            rintro rfl
            rw [ht] at hjt; cases hjt; exact hpt rfl
          simp [flds_setFld, List.getElem?_set_ne hij]

theorem flds_store_map (m : M) (ps : List Param) :
    flds (store m ps) =
      List.zipWith (fun t old => (lastWith t ps).or old) (tags M) (flds m) := by
  apply List.ext_getElem?
  intro i
  by_cases hi : i < (tags M).length
  · have ht : (tags M)[i]? = some (tags M)[i] := List.getElem?_eq_getElem hi
    rw [flds_store m ps i _ ht]
    have hf : i < (flds m).length := by rw [flds_length]; exact hi
    simp [List.getElem?_zipWith, ht, List.getElem?_eq_getElem hf]
  · have hf : ¬ i < (flds m).length := by rw [flds_length]; exact hi
    have hs : ¬ i < (flds (store m ps)).length := by rw [flds_length]; exact hi
    rw [List.getElem?_eq_none (by omega), List.getElem?_eq_none]
    simp; omega

theorem unmarshal_exact (m : M) (b : Bytes) : unmarshalBinary m b =
    (Header.parse b >>= fun h => parseMultiParams h.payload >>= fun prs =>
      if ∀ p ∈ prs, p.tag ∈ tags M then .ok (store (setHdr m h) prs) else .err (bad M)) := by
  rw [unmarshalBinary_eq]
  congr 1; funext h; congr 1; funext prs
  rw [setParams_exact]

/-- Storing the present parameters of a well-tagged field list into empty slots restores it. -/
theorem zipWith_present (ts : List UInt16) (hts : ts.Nodup) :
    ∀ fs : List (Option Param), fs.length = ts.length →
    (∀ x ∈ List.zip ts fs, ∀ p, x.2 = some p → p.tag = x.1) →
    (∀ p ∈ present fs, p.tag ∈ ts) ∧
    List.zipWith (fun t _ => lastWith t (present fs)) ts fs = fs := by
  induction ts with
  | nil => intro fs hl _; cases fs <;> simp_all
  | cons t ts ih =>
    intro fs hl hz
    cases fs with
    | nil => simp at hl
    | cons o fs =>
      simp only [List.length_cons, Nat.add_right_cancel_iff] at hl
      have hnd := List.nodup_cons.mp hts
      obtain ⟨h1, h2⟩ := ih hnd.2 fs hl (fun x hx => hz x (by simp [hx]))
      have hnone : lastWith t (present fs) = none := by
        unfold lastWith
        rw [List.filter_eq_nil_iff.mpr]
        · rfl
        · intro q hq
          have := h1 q hq
          simp only [decide_eq_true_eq]
          rintro rfl
          exact hnd.1 this
      cases o with
      | none =>
        refine ⟨fun p hp => by simp at hp ⊢; exact .inr (h1 p hp), ?_⟩
        simp only [present_none, List.zipWith_cons_cons, hnone, h2]
      | some p =>
        have hp : p.tag = t := hz (t, some p) (by simp) p rfl
        refine ⟨fun q hq => ?_, ?_⟩
        · simp only [present_some, List.mem_cons] at hq ⊢
          rcases hq with rfl | hq
          · exact .inl hp
          · exact .inr (h1 q hq)
        · simp only [present_some, List.zipWith_cons_cons]
          rw [lastWith_cons, hnone, if_pos hp]
          simp only [Option.none_or]
          congr 1
          rw [← h2]
          simp only [h2]
          conv => rhs; rw [← h2]
          apply List.ext_getElem?
          intro i
          simp only [List.getElem?_zipWith]
          cases ht : ts[i]? with
          | none => rfl
          | some u =>
            cases fs[i]? with
            | none => rfl
            | some o' =>
              simp only [Option.some.injEq]
              rw [lastWith_cons, if_neg]
              · simp
              · rintro rfl
                rw [hp] at ht
                exact hnd.1 (List.mem_of_getElem? ht)

/-- The fields carry the tags of their slots. -/
def Tagged (m : M) : Prop := ∀ x ∈ List.zip (tags M) (flds m), ∀ p, x.2 = some p → p.tag = x.1

/-- The length fields of the parameters match their data. -/
def Consistent (m : M) : Prop := ∀ p ∈ present (flds m), p.Consistent

theorem aux_zero' (b : Bytes) (m : M) (h : unmarshalBinary (zero : M) b = .ok m) : aux m = none := by
  rw [unmarshal_exact] at h
  cases h1 : Header.parse b with
  | ok hd =>
    rw [h1] at h; simp only [Res.bind_ok] at h
    cases h2 : parseMultiParams hd.payload with
    | ok ps =>
      rw [h2] at h; simp only [Res.bind_ok] at h
      split at h
      · cases h; rw [aux_store, aux_setHdr, aux_zero]
      · cases h
    | err e => rw [h2] at h; cases h
    | panic => rw [h2] at h; cases h
    | diverge => rw [h2] at h; cases h
  | err e => rw [h1] at h; cases h
  | panic => rw [h1] at h; cases h
  | diverge => rw [h1] at h; cases h

theorem zipWith_replicate_none (ts : List UInt16) (f : UInt16 → Option Param)
    (fs : List (Option Param)) (hl : fs.length = ts.length) :
    List.zipWith (fun t old => (f t).or old) ts (ts.map fun _ => none) =
      List.zipWith (fun t _ => f t) ts fs := by
  induction ts generalizing fs with
  | nil => simp
  | cons t ts ih =>
    cases fs with
    | nil => simp at hl
    | cons o fs => simp [ih fs (by simpa using hl)]

/-- Parsing the encoding of a message gives it back (with the payload filled in). -/
theorem parse_encode (m : M) (ht : Tagged m) (hc : Consistent m) (hx : aux m = none) (h : Header) :
    unmarshalBinary (zero : M) (h.head ++ body (flds m)) =
      .ok (setHdr m { h with payload := body (flds m) }) := by
  obtain ⟨z1, z2⟩ := zipWith_present (tags M) tags_nodup (flds m) (flds_length m) ht
  rw [unmarshal_exact, Header.parse_head]
  simp only [Res.bind_ok]
  have : parseMultiParams (body (flds m)) = .ok (present (flds m)) := parseMulti_encode _ hc
  rw [this]
  simp only [Res.bind_ok]
  rw [if_pos z1]
  congr 1
  apply Codec.ext
  · rw [hdr_store, hdr_setHdr, hdr_setHdr]
  · rw [flds_store_map, flds_setHdr, flds_setHdr, flds_zero,
      zipWith_replicate_none _ _ (flds m) (flds_length m), z2]
  · rw [aux_store, aux_setHdr, aux_setHdr, aux_zero, hx]

theorem lastWith_mem {t : UInt16} {ps : List Param} {p : Param} (h : lastWith t ps = some p) :
    p ∈ ps ∧ p.tag = t := by
  have := List.mem_of_getLast? h
  simpa using this

/-- What `UnmarshalBinary` into a fresh value returns is well-tagged and consistent. -/
theorem parsed_tagged {b : Bytes} {m : M} (h : unmarshalBinary (zero : M) b = .ok m) :
    Tagged m ∧ Consistent m ∧ aux m = none ∧ 8 ≤ b.length ∧
      ∃ hd ps, Header.parse b = .ok hd ∧ hdr m = hd ∧ parseMultiParams hd.payload = .ok ps ∧
        (∀ p ∈ ps, p.tag ∈ tags M) ∧ flds m = (tags M).map (fun t => lastWith t ps) := by
  have hx := aux_zero' b m h
  rw [unmarshal_exact] at h
  rcases Header.parse_total b with ⟨_, h1⟩ | ⟨hl, hd, h1, _⟩
  · rw [h1] at h; cases h
  · rw [h1] at h; simp only [Res.bind_ok] at h
    rcases parseMulti_total hd.payload with ⟨ps, h2⟩ | h2 | h2
    · rw [h2] at h; simp only [Res.bind_ok] at h
      split at h
      · rename_i hall
        cases h
        have hf : flds (store (setHdr (zero : M) hd) ps) = (tags M).map (fun t => lastWith t ps) := by
          rw [flds_store_map, flds_setHdr, flds_zero,
            zipWith_replicate_none _ _ ((tags M).map fun _ => none) (by simp)]
          induction (tags M) with
          | nil => rfl
          | cons t ts ih => simp [ih]
        refine ⟨?_, ?_, hx, hl, hd, ps, h1, by rw [hdr_store, hdr_setHdr], h2, hall, hf⟩
        · intro x hx' p hp
          rw [hf] at hx'
          have : x.2 = lastWith x.1 ps := by
            obtain ⟨i, hi⟩ := List.mem_iff_getElem?.mp hx'
            rw [List.getElem?_zip_eq_some] at hi
            obtain ⟨hi1, hi2⟩ := hi
            rw [List.getElem?_map, hi1] at hi2
            simpa using hi2.symm
          rw [this] at hp
          exact (lastWith_mem hp).2
        · intro p hp
          rw [hf] at hp
          simp only [present, List.mem_filterMap, List.mem_map, id_eq] at hp
          obtain ⟨_, ⟨t, _, rfl⟩, hp⟩ := hp
          exact parseMulti_consistent h2 p (lastWith_mem hp).1
      · cases h
    · rw [h2] at h; cases h
    · rw [h2] at h; cases h

end Codec

end M3
