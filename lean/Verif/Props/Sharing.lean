import Verif.Model.Sharing
import Verif.Props.Reencode

/- C107: parameters that several messages hold. -/

set_option autoImplicit false
set_option linter.unusedSimpArgs false

namespace M3

open Spec

namespace Spec

/-- Specification: what a parameter is to its user: tag and value. -/
def given (p : Param) : Nat × List UInt8 := (p.tag.toNat, p.data)

/-- Specification: the statements that change message `i` or one of the parameters `as`. -/
def Changes (as : List Nat) (i : Nat) : Use → Prop
  | .data a _ => a ∈ as
  | .field j _ _ => j = i
  | _ => False

/-- Specification: programs as the author of values would think of them. A message is the octets it was when it was made. -/
structure Eager where
  params : List (Nat × List UInt8) := []
  msgs : List (List UInt8) := []
  sent : List (Nat × List UInt8) := []

def Eager.step (e : Eager) : Use → Eager
  | .param p => { e with params := e.params ++ [given p] }
  | .new k args => { e with msgs := e.msgs ++ [message 1 k.cls k.typ (presentTlvs (k.params.map fun n => (args n).bind (e.params[·]?)))] }
  | .generic ver cls typ args =>
    { e with msgs := e.msgs ++ [message ver.toNat cls.toNat typ.toNat (presentTlvs (args.map (e.params[·]?)))] }
  | .marshal i => { e with sent := e.sent ++ (e.msgs[i]?.map fun b => (i, b)).toList }
  | _ => e

end Spec

namespace MsgPtr

theorem read_kind (heap : List Param) (m : MsgPtr) : (m.read heap).kind = m.kind := by
  rcases m with ⟨_ | k, h, f, l⟩
  · rfl
  · cases k <;> rfl

theorem read_header (heap : List Param) (m : MsgPtr) : (m.read heap).header = m.header := by
  rcases m with ⟨_ | k, h, f, l⟩
  · rfl
  · cases k <;> rfl

theorem present_filterMap {α : Type} (f : α → Option Param) (l : List α) : present (l.map f) = l.filterMap f := by
  rw [present, List.filterMap_map]
  rfl

theorem read_field (heap : List Param) (m : MsgPtr) (k : Kind) (hk : m.kind = some k) (n : PName) (hn : n ∈ k.params) :
    (m.read heap).field n = (m.named n).bind (heap[·]?) := by
  rcases m with ⟨_ | k', h, f, l⟩
  · cases hk
  · cases hk
    cases k <;> cases n <;> first | rfl | (exact absurd hn (by decide))

/-- The parameters of the message in the order in which they are marshalled. -/
theorem read_wire (heap : List Param) (m : MsgPtr) : (m.read heap).wireParams = m.targets.filterMap (heap[·]?) := by
  cases hk : m.kind with
  | none =>
    rcases m with ⟨_, h, f, l⟩
    cases hk
    rfl
  | some k =>
    rw [M3UA.wireParams_typed (by rw [read_kind, hk]), targets, hk, List.filterMap_filterMap, ← present_filterMap]
    exact congrArg _ (List.map_congr_left fun n hn => read_field heap m k hk n hn)

/-- What `MarshalBinary` returns. -/
theorem read_encodes (heap : List Param) (m : MsgPtr) :
    ∃ m', (m.read heap).marshalBinary = .ok (m', m.header.head ++ (m.targets.filterMap (heap[·]?)).flatMap Param.encode) ∧
      m'.header = { m.header with payload := m'.header.payload } := by
  have h := M3UA.marshalBinary_exact (m.read heap)
  rw [read_header, M3UA.bodyBytes, read_wire] at h
  refine ⟨_, h, ?_⟩
  rw [M3UA.cached, M3UA.header_withHeader, read_header]

theorem read_len (heap : List Param) (m : MsgPtr) : (m.read heap).marshalLen = 8 + ((m.targets.filterMap (heap[·]?)).flatMap Param.encode).length := by
  rw [M3UA.marshalLen_eq, M3UA.bodyBytes, read_wire]

theorem length_get (heap : List Param) (m : MsgPtr) (a : Nat) :
    (m.setLength heap).1[a]? = if a ∈ m.targets then heap[a]?.map Param.setLength else heap[a]? := by
  simp only [setLength, List.getElem?_mapIdx]
  split
  · rfl
  · cases heap[a]? <;> rfl

/-- The lengths that the message writes when it is marshalled are right. -/
def Fresh (heap : List Param) (m : MsgPtr) : Prop :=
  (∀ a ∈ m.targets, ∃ p, heap[a]? = some p ∧ p.setLength = p) ∧
  m.header.length = UInt32.ofNat (8 + ((m.targets.filterMap (heap[·]?)).flatMap Param.encode).length)

/-- `m'` is `m` but for the cache of the header, and its parameters are as they were. -/
def Kept (heap : List Param) (m : MsgPtr) (heap' : List Param) (m' : MsgPtr) : Prop :=
  m'.kind = m.kind ∧ m'.named = m.named ∧ m'.listed = m.listed ∧ { m'.header with payload := m.header.payload } = m.header ∧
  ∀ a ∈ m.targets, heap'[a]? = heap[a]?

theorem filterMap_eq {α β : Type} (f g : α → Option β) (l : List α) (h : ∀ a ∈ l, f a = g a) : l.filterMap f = l.filterMap g := by
  induction l with
  | nil => rfl
  | cons x xs ih =>
    rw [List.filterMap_cons, List.filterMap_cons, h x List.mem_cons_self, ih fun a ha => h a (List.mem_cons_of_mem _ ha)]

namespace Kept

variable {heap heap' heap'' : List Param} {m m' m'' : MsgPtr}

theorem rfl' (heap : List Param) (m : MsgPtr) : Kept heap m heap m := ⟨rfl, rfl, rfl, rfl, fun _ _ => rfl⟩

theorem targets (h : Kept heap m heap' m') : m'.targets = m.targets := by
  rcases m with ⟨k, hd, f, l⟩
  rcases m' with ⟨k', hd', f', l'⟩
  obtain ⟨rfl, rfl, rfl, -, -⟩ := h
  rfl

theorem trans (h : Kept heap m heap' m') (h' : Kept heap' m' heap'' m'') : Kept heap m heap'' m'' := by
  have ht := h.targets
  obtain ⟨a1, a2, a3, a4, a5⟩ := h
  obtain ⟨b1, b2, b3, b4, b5⟩ := h'
  refine ⟨b1.trans a1, b2.trans a2, b3.trans a3, ?_, fun a ha => (b5 a (ht ▸ ha)).trans (a5 a ha)⟩
  rw [← a4, ← b4]

theorem contents (h : Kept heap m heap' m') : m'.targets.filterMap (heap'[·]?) = m.targets.filterMap (heap[·]?) := by
  rw [h.targets]
  exact filterMap_eq _ _ _ h.2.2.2.2

theorem hlen (h : Kept heap m heap' m') : m'.header.length = m.header.length := by
  have := congrArg Header.length h.2.2.2.1
  exact this

theorem fresh (h : Kept heap m heap' m') (hf : Fresh heap m) : Fresh heap' m' := by
  refine ⟨fun a ha => ?_, ?_⟩
  · rw [h.targets] at ha
    rw [h.2.2.2.2 a ha]
    exact hf.1 a ha
  · rw [h.contents, h.hlen]; exact hf.2

theorem head (h : Kept heap m heap' m') : m'.header.head = m.header.head := by
  rw [← h.2.2.2.1]
  rfl

end Kept

/-- Encoding of a parameter with the right length. -/
theorem encode_fresh (p : Param) (h : p.setLength = p) : p.encode = tlv (given p).1 (given p).2 := by
  rw [← h]
  exact M3UA.encode_setLength p

/-- The octets of a message with right lengths. -/
theorem fresh_wire (heap : List Param) (m : MsgPtr) (hf : Fresh heap m) (hr : m.header.reserved = 0) :
    m.header.head ++ (m.targets.filterMap (heap[·]?)).flatMap Param.encode =
      message m.header.version.toNat m.header.cls.toNat m.header.typ.toNat (presentTlvs (m.targets.map fun a => heap[a]?.map given)) := by
  have hb : (m.targets.filterMap (heap[·]?)).flatMap Param.encode = (presentTlvs (m.targets.map fun a => heap[a]?.map given)).flatten := by
    have := hf.1
    revert this
    generalize m.targets = l
    intro h1
    induction l with
    | nil => rfl
    | cons a l ih =>
      obtain ⟨p, hp, hl⟩ := h1 a List.mem_cons_self
      rw [List.filterMap_cons, hp, List.map_cons, hp]
      simp only [List.flatMap_cons, Option.map_some, given, presentTlvs, List.flatten_cons]
      rw [ih fun a ha => h1 a (List.mem_cons_of_mem _ ha), encode_fresh p hl]
      rfl
  rw [hb]
  simp only [Header.head, message, hf.2, hr, M3UA.u32bytes_ofNat, hb, UInt8.ofNat_toNat]

end MsgPtr

namespace Store

open MsgPtr

/-- Fields point to parameters that exist, and the reserved octets are 0. -/
def Valid (s : Store) : Prop := ∀ m ∈ s.msgs,
  (∀ n a, m.named n = some a → a < s.heap.length) ∧ (∀ a ∈ m.listed, a < s.heap.length) ∧ m.header.reserved = 0

theorem ptr_lt {s : Store} {o : Option Nat} {a : Nat} (h : s.ptr o = some a) : a < s.heap.length ∧ o = some a := by
  rw [ptr, Option.filter_eq_some_iff] at h
  exact ⟨by simpa using h.2, h.1⟩

theorem targets_lt {s : Store} (hv : s.Valid) {m : MsgPtr} (hm : m ∈ s.msgs) : ∀ a ∈ m.targets, a < s.heap.length := by
  intro a ha
  rw [targets] at ha
  split at ha
  · rw [List.mem_filterMap] at ha
    obtain ⟨n, -, hn⟩ := ha
    exact (hv m hm).1 n a hn
  · exact (hv m hm).2.1 a ha

theorem setLength_length (heap : List Param) (m : MsgPtr) : (m.setLength heap).1.length = heap.length := by
  simp only [MsgPtr.setLength, List.length_mapIdx]

theorem heap_mono (s : Store) (u : Use) : s.heap.length ≤ (s.step u).heap.length := by
  cases u <;> simp only [step, make, List.length_append, setLength_length, List.length_modify, Nat.le_refl] <;> try omega
  all_goals split <;> try exact Nat.le_refl _
  · simp only [setLength_length]; exact Nat.le_refl _
  · split <;> exact Nat.le_refl _

/-- The claim of `Valid` for one message. -/
def ValidAt (n : Nat) (m : MsgPtr) : Prop := (∀ x a, m.named x = some a → a < n) ∧ (∀ a ∈ m.listed, a < n) ∧ m.header.reserved = 0

theorem ValidAt.mono {n n' : Nat} (h : n ≤ n') {m : MsgPtr} (hm : ValidAt n m) : ValidAt n' m :=
  ⟨fun x a hx => Nat.lt_of_lt_of_le (hm.1 x a hx) h, fun a ha => Nat.lt_of_lt_of_le (hm.2.1 a ha) h, hm.2.2⟩

theorem valid_step (s : Store) (hv : s.Valid) (u : Use) : (s.step u).Valid := by
  have hmono := heap_mono s u
  have old : ∀ m ∈ s.msgs, ValidAt (s.step u).heap.length m := fun m hm => ValidAt.mono hmono (hv m hm)
  intro m hm
  show ValidAt _ m
  cases u with
  | param p => exact old m hm
  | data a d => exact old m hm
  | length a => exact old m hm
  | new k args =>
    simp only [step, make, List.mem_append, List.mem_singleton] at hm
    rcases hm with hm | rfl
    · exact old m hm
    · refine ⟨fun x a hx => ?_, fun a ha => (List.not_mem_nil ha).elim, rfl⟩
      exact Nat.lt_of_lt_of_le (ptr_lt hx).1 hmono
  | generic ver cls typ args =>
    simp only [step, make, List.mem_append, List.mem_singleton] at hm
    rcases hm with hm | rfl
    · exact old m hm
    · refine ⟨fun x a hx => (by cases hx), fun a ha => ?_, rfl⟩
      have ha : a ∈ args.filter (· < s.heap.length) := ha
      rw [List.mem_filter] at ha
      exact Nat.lt_of_lt_of_le (by simpa using ha.2) hmono
  | lengths i =>
    simp only [step] at hm
    cases hi : s.msgs[i]? with
    | none => rw [hi] at hm; exact old m hm
    | some m₀ =>
      rw [hi] at hm
      rcases List.mem_or_eq_of_mem_set hm with hm | rfl
      · exact old m hm
      · exact old m₀ (List.mem_of_getElem? hi)
  | field i n a =>
    simp only [step, List.mem_iff_getElem?, List.getElem?_modify] at hm
    obtain ⟨j, hj⟩ := hm
    rw [Option.map_eq_map, Option.map_eq_some_iff] at hj
    obtain ⟨m₀, h0, rfl⟩ := hj
    have hold := old m₀ (List.mem_of_getElem? h0)
    split
    · refine ⟨fun x b hx => ?_, hold.2⟩
      simp only at hx
      split at hx
      · exact Nat.lt_of_lt_of_le (ptr_lt hx).1 hmono
      · exact hold.1 x b hx
    · exact hold
  | marshal i =>
    simp only [step] at hm
    cases hi : s.msgs[i]? with
    | none => rw [hi] at hm; exact old m hm
    | some m₀ =>
      rw [hi] at hm
      obtain ⟨m', h1, h2⟩ := read_encodes s.heap m₀
      simp only [h1] at hm
      rcases List.mem_or_eq_of_mem_set hm with hm | rfl
      · exact old m hm
      · have := old m₀ (List.mem_of_getElem? hi)
        refine ⟨this.1, this.2.1, ?_⟩
        show m'.header.reserved = 0
        rw [h2]
        exact this.2.2

theorem valid_run (s : Store) (hv : s.Valid) (us : List Use) : (s.run us).Valid := by
  induction us generalizing s with
  | nil => exact hv
  | cons u us ih => exact ih _ (valid_step s hv u)

theorem valid_start : start.Valid := fun _ h => (List.not_mem_nil h).elim

/-- Parameters whose length is right stay as they are, unless their data is changed. -/
theorem heap_step (s : Store) (u : Use) (a : Nat) (p : Param) (hp : s.heap[a]? = some p) (hl : p.setLength = p) (hu : ∀ d, u ≠ .data a d) :
    (s.step u).heap[a]? = some p := by
  have hlt : a < s.heap.length := (List.getElem?_eq_some_iff.mp hp).1
  have hset : ∀ m : MsgPtr, (m.setLength s.heap).1[a]? = some p := by
    intro m
    rw [length_get, hp]
    split
    · simp [hl]
    · rfl
  cases u with
  | param q => simp only [step]; rw [List.getElem?_append_left hlt, hp]
  | new k args => exact hset _
  | generic ver cls typ args => exact hset _
  | data b d =>
    simp only [step, List.getElem?_modify, hp]
    by_cases hb : b = a
    · subst hb; exact absurd rfl (hu d)
    · simp [hb]
  | length b =>
    simp only [step, List.getElem?_modify, hp]
    split
    · simp [hl]
    · rfl
  | lengths i =>
    simp only [step]
    cases s.msgs[i]? with
    | none => exact hp
    | some m => exact hset m
  | field i n b => exact hp
  | marshal i =>
    simp only [step]
    split
    · exact hp
    · split <;> exact hp

theorem fresh_setLength (heap : List Param) (m : MsgPtr) (hlt : ∀ a ∈ m.targets, a < heap.length) :
    Fresh (m.setLength heap).1 (m.setLength heap).2 := by
  refine ⟨fun a ha => ?_, ?_⟩
  · have ha : a ∈ m.targets := ha
    rw [length_get, if_pos ha, List.getElem?_eq_getElem (hlt a ha)]
    exact ⟨_, rfl, rfl⟩
  · show UInt32.ofNat _ = _
    rw [read_len]
    rfl

theorem kept_step (s : Store) (i : Nat) (m : MsgPtr) (hm : s.msgs[i]? = some m) (hf : Fresh s.heap m) (u : Use) (hu : ¬ Changes m.targets i u) :
    ∃ m', (s.step u).msgs[i]? = some m' ∧ Kept s.heap m (s.step u).heap m' := by
  have hlt : i < s.msgs.length := (List.getElem?_eq_some_iff.mp hm).1
  have hh : ∀ a ∈ m.targets, (s.step u).heap[a]? = s.heap[a]? := by
    intro a ha
    obtain ⟨p, hp, hl⟩ := hf.1 a ha
    rw [hp]
    exact heap_step s u a p hp hl fun d hd => hu (by subst hd; exact ha)
  cases u with
  | param q => exact ⟨m, hm, rfl, rfl, rfl, rfl, hh⟩
  | data b d => exact ⟨m, hm, rfl, rfl, rfl, rfl, hh⟩
  | length b => exact ⟨m, hm, rfl, rfl, rfl, rfl, hh⟩
  | new k args => exact ⟨m, by simp only [step, make]; rw [List.getElem?_append_left hlt, hm], rfl, rfl, rfl, rfl, hh⟩
  | generic ver cls typ args => exact ⟨m, by simp only [step, make]; rw [List.getElem?_append_left hlt, hm], rfl, rfl, rfl, rfl, hh⟩
  | field j n b =>
    refine ⟨m, ?_, rfl, rfl, rfl, rfl, hh⟩
    simp only [step, List.getElem?_modify, hm]
    have hji : ¬ j = i := fun h => hu h
    simp [hji]
  | lengths j =>
    simp only [step] at hh ⊢
    cases hj : s.msgs[j]? with
    | none => exact ⟨m, hm, rfl, rfl, rfl, rfl, fun _ _ => rfl⟩
    | some m₀ =>
      rw [hj] at hh
      simp only at hh ⊢
      by_cases hij : j = i
      · subst hij
        rw [hm] at hj
        cases hj
        refine ⟨_, List.getElem?_set_self hlt, rfl, rfl, rfl, ?_, hh⟩
        have e : m.header.length = UInt32.ofNat (m.read (m.setLength s.heap).1).marshalLen := by
          rw [hf.2, read_len, filterMap_eq _ _ _ hh]
        show (⟨_, _, _, _, UInt32.ofNat (m.read (m.setLength s.heap).1).marshalLen, _⟩ : Header) = m.header
        rw [← e]
        rfl
      · exact ⟨m, by rw [List.getElem?_set_ne hij, hm], rfl, rfl, rfl, rfl, hh⟩
  | marshal j =>
    clear hh
    simp only [step]
    cases hj : s.msgs[j]? with
    | none => exact ⟨m, hm, rfl, rfl, rfl, rfl, fun _ _ => rfl⟩
    | some m₀ =>
      obtain ⟨m', h1, h2⟩ := read_encodes s.heap m₀
      simp only [h1]
      by_cases hij : j = i
      · subst hij
        rw [hm] at hj
        cases hj
        refine ⟨_, List.getElem?_set_self hlt, rfl, rfl, rfl, ?_, fun _ _ => rfl⟩
        rw [h2]
      · exact ⟨m, by rw [List.getElem?_set_ne hij, hm], rfl, rfl, rfl, rfl, fun _ _ => rfl⟩

theorem kept_run (us : List Use) (s : Store) (i : Nat) (m : MsgPtr) (hm : s.msgs[i]? = some m) (hf : Fresh s.heap m)
    (hu : ∀ u ∈ us, ¬ Changes m.targets i u) : ∃ m', (s.run us).msgs[i]? = some m' ∧ Kept s.heap m (s.run us).heap m' := by
  induction us generalizing s m with
  | nil => exact ⟨m, hm, Kept.rfl' _ _⟩
  | cons u us ih =>
    obtain ⟨m₁, h1, k1⟩ := kept_step s i m hm hf u (hu u List.mem_cons_self)
    obtain ⟨m₂, h2, k2⟩ := ih (s.step u) m₁ h1 (k1.fresh hf) fun v hv => by rw [k1.targets]; exact hu v (List.mem_cons_of_mem _ hv)
    exact ⟨m₂, h2, k1.trans k2⟩

/-- Marshalling a message with right lengths. -/
theorem sent_of_fresh (s : Store) (i : Nat) (m : MsgPtr) (hm : s.msgs[i]? = some m) (hf : Fresh s.heap m) (hr : m.header.reserved = 0) :
    (s.step (.marshal i)).sent = s.sent ++ [(i, message m.header.version.toNat m.header.cls.toNat m.header.typ.toNat
      (presentTlvs (m.targets.map fun a => s.heap[a]?.map given)))] := by
  obtain ⟨m', h1, -⟩ := read_encodes s.heap m
  simp only [step, hm, h1]
  rw [fresh_wire s.heap m hf hr]

theorem run_append (s : Store) (us vs : List Use) : s.run (us ++ vs) = (s.run us).run vs := by rw [run, List.foldl_append]; rfl

theorem tlvs_filterMap {α β : Type} (f : α → Option β) (g : β → Option (Nat × Bytes)) (l : List α) :
    presentTlvs ((l.filterMap f).map g) = presentTlvs (l.map fun n => (f n).bind g) := by
  induction l with
  | nil => rfl
  | cons x xs ih =>
    cases h : f x with
    | none => simp only [List.filterMap_cons, h, List.map_cons, Option.bind_none, presentTlvs, ih]
    | some b =>
      simp only [List.filterMap_cons, h, List.map_cons, Option.bind_some]
      cases hg : g b with
      | none => simp only [presentTlvs, ih]
      | some x => rcases x with ⟨t, v⟩; simp only [presentTlvs, ih]

/-- A new message: its lengths are right. -/
theorem make_fresh (s : Store) (m : MsgPtr) (hlt : ∀ a ∈ m.targets, a < s.heap.length) :
    (s.make m).msgs[s.msgs.length]? = some (m.setLength s.heap).2 ∧ Fresh (s.make m).heap (m.setLength s.heap).2 := by
  refine ⟨?_, fresh_setLength s.heap m hlt⟩
  simp only [make]
  rw [List.getElem?_append_right (Nat.le_refl _), Nat.sub_self]
  rfl

theorem given_setLength (heap : List Param) (m : MsgPtr) (a : Nat) : ((m.setLength heap).1[a]?).map given = heap[a]?.map given := by
  rw [length_get]
  split
  · cases heap[a]? <;> rfl
  · rfl

end Store

open Store MsgPtr

/-- C107: whatever a program has done before, and whatever it does afterwards with other messages that hold the same parameters: after `SetLength` of a
message, and as long as its fields and the data of its parameters are not assigned to, `MarshalBinary` returns the message as it was then, with right
lengths everywhere. -/
theorem c107_lengths (us₀ us : List Use) (i : Nat) (m : MsgPtr) (hm : (start.run us₀).msgs[i]? = some m) (hu : ∀ u ∈ us, ¬ Changes m.targets i u) :
    (start.run (us₀ ++ .lengths i :: us ++ [.marshal i])).sent = (start.run (us₀ ++ .lengths i :: us)).sent ++
      [(i, message m.header.version.toNat m.header.cls.toNat m.header.typ.toNat
        (presentTlvs (m.targets.map fun a => (start.run us₀).heap[a]?.map given)))] := by
  rw [run_append, run_append]
  have hv := valid_run _ valid_start us₀
  generalize start.run us₀ = s at *
  have hmem := List.mem_of_getElem? hm
  have hlt := targets_lt hv hmem
  have hi : (s.step (.lengths i)).msgs[i]? = some (m.setLength s.heap).2 := by
    simp only [step, hm]
    exact List.getElem?_set_self (List.getElem?_eq_some_iff.mp hm).1
  have hh : (s.step (.lengths i)).heap = (m.setLength s.heap).1 := by simp only [step, hm]
  have hf : Fresh (s.step (.lengths i)).heap (m.setLength s.heap).2 := by rw [hh]; exact fresh_setLength s.heap m hlt
  show ((((s.step (.lengths i)).run us).step (.marshal i))).sent = ((s.step (.lengths i)).run us).sent ++ _
  obtain ⟨m', h1, hk⟩ := kept_run us _ i _ hi hf hu
  have hr : m'.header.reserved = 0 := by
    have := congrArg Header.reserved hk.2.2.2.1
    exact this.trans (hv m hmem).2.2
  rw [sent_of_fresh _ i m' h1 (hk.fresh hf) hr]
  have hb : (m'.targets.map fun a => ((s.step (.lengths i)).run us).heap[a]?.map given) = m.targets.map fun a => s.heap[a]?.map given := by
    rw [hk.targets]
    refine List.map_congr_left fun a ha => ?_
    rw [hk.2.2.2.2 a ha, hh, given_setLength]
  rw [hb]
  have e1 : m'.header.version = m.header.version := by
    have := congrArg Header.version hk.2.2.2.1
    exact this
  have e2 : m'.header.cls = m.header.cls := by
    have := congrArg Header.cls hk.2.2.2.1
    exact this
  have e3 : m'.header.typ = m.header.typ := by
    have := congrArg Header.typ hk.2.2.2.1
    exact this
  rw [e1, e2, e3]

/-- C107: what messages do to parameters: only the length. Tag and data of a parameter are those it was made with, or that were assigned. -/
theorem c107_values (s : Store) (u : Use) : (s.step u).heap.map given =
    match u with
    | .param p => s.heap.map given ++ [given p]
    | .data a d => (s.heap.map given).modify a fun x => (x.1, d)
    | _ => s.heap.map given := by
  have hset : ∀ m : MsgPtr, (m.setLength s.heap).1.map given = s.heap.map given := by
    intro m
    apply List.ext_getElem?
    intro a
    rw [List.getElem?_map, List.getElem?_map, given_setLength]
  cases u with
  | param p => simp only [step, List.map_append, List.map_cons, List.map_nil]
  | new k args => exact hset _
  | generic ver cls typ args => exact hset _
  | data a d =>
    apply List.ext_getElem?
    intro b
    simp only [step, List.getElem?_map, List.getElem?_modify]
    cases s.heap[b]? with
    | none => rfl
    | some p => by_cases h : a = b <;> simp [h, given]
  | length a =>
    apply List.ext_getElem?
    intro b
    simp only [step, List.getElem?_map, List.getElem?_modify]
    cases s.heap[b]? with
    | none => rfl
    | some p => by_cases h : a = b <;> simp [h, given, Param.setLength]
  | lengths i =>
    simp only [step]
    split
    · rfl
    · exact hset _
  | field i n a => rfl
  | marshal i =>
    simp only [step]
    split
    · rfl
    · split <;> rfl

/-- The octets of message `m`, if its lengths are right. -/
def MsgPtr.octets (heap : List Param) (m : MsgPtr) : Bytes :=
  message m.header.version.toNat m.header.cls.toNat m.header.typ.toNat (presentTlvs (m.targets.map fun a => heap[a]?.map given))

theorem MsgPtr.Kept.octets {heap heap' : List Param} {m m' : MsgPtr} (h : Kept heap m heap' m') : m'.octets heap' = m.octets heap := by
  have e1 : m'.header.version = m.header.version := by
    have := congrArg Header.version h.2.2.2.1
    exact this
  have e2 : m'.header.cls = m.header.cls := by
    have := congrArg Header.cls h.2.2.2.1
    exact this
  have e3 : m'.header.typ = m.header.typ := by
    have := congrArg Header.typ h.2.2.2.1
    exact this
  rw [MsgPtr.octets, MsgPtr.octets, e1, e2, e3, h.targets, List.map_congr_left fun a ha => by rw [h.2.2.2.2 a ha]]

namespace Store

/-- A store and the same program seen as one about values. -/
structure Agree (s : Store) (e : Eager) : Prop where
  valid : s.Valid
  params : s.heap.map given = e.params
  count : e.msgs.length = s.msgs.length
  sent : s.sent = e.sent
  each : ∀ (i : Nat) (m : MsgPtr), s.msgs[i]? = some m → Fresh s.heap m ∧ e.msgs[i]? = some (m.octets s.heap)

theorem Agree.get {s : Store} {e : Eager} (h : Agree s e) (a : Nat) : s.heap[a]?.map given = e.params[a]? := by
  rw [← h.params, List.getElem?_map]

/-- One more message. -/
theorem Agree.make {s : Store} {e : Eager} (h : Agree s e) (m : MsgPtr) (hlt : ∀ a ∈ m.targets, a < s.heap.length) (hv : (s.make m).Valid)
    (hp : (s.make m).heap.map given = s.heap.map given)
    (hk : ∀ (i : Nat) (m₀ : MsgPtr), s.msgs[i]? = some m₀ → Fresh s.heap m₀ → ∃ m', (s.make m).msgs[i]? = some m' ∧ Kept s.heap m₀ (s.make m).heap m')
    (b : Bytes) (hb : m.octets s.heap = b) : Agree (s.make m) { e with msgs := e.msgs ++ [b] } := by
  have hlen : (s.make m).msgs.length = s.msgs.length + 1 := by simp [Store.make]
  refine ⟨hv, hp.trans h.params, by simp [h.count, hlen], h.sent, fun i m' hi => ?_⟩
  obtain ⟨h1, h2⟩ := make_fresh s m hlt
  rcases Nat.lt_trichotomy i s.msgs.length with hl | rfl | hl
  · obtain ⟨hf, he⟩ := h.each i s.msgs[i] (List.getElem?_eq_getElem hl)
    obtain ⟨m'', h3, h4⟩ := hk i _ (List.getElem?_eq_getElem hl) hf
    rw [hi] at h3
    cases h3
    exact ⟨h4.fresh hf, by rw [List.getElem?_append_left (by rw [h.count]; exact hl), he, h4.octets]⟩
  · rw [hi] at h1
    cases h1
    refine ⟨h2, ?_⟩
    rw [List.getElem?_append_right (by rw [h.count]; exact Nat.le_refl _), h.count, Nat.sub_self, ← hb]
    simp only [List.getElem?_cons_zero, Option.some.injEq, MsgPtr.octets]
    have : ∀ a ∈ m.targets, ((s.make m).heap[a]?.map given) = s.heap[a]?.map given := fun a _ => given_setLength s.heap m a
    show _ = message _ _ _ (presentTlvs (m.targets.map fun a => (s.make m).heap[a]?.map given))
    rw [List.map_congr_left this]
    rfl
  · have := (List.getElem?_eq_some_iff.mp hi).1
    omega

theorem agree_step {s : Store} {e : Eager} (h : Agree s e) (u : Use) (hu : ∀ as i, ¬ Changes as i u) : Agree (s.step u) (e.step u) := by
  have hv := valid_step s h.valid u
  have hp := c107_values s u
  have hk : ∀ i m, s.msgs[i]? = some m → Fresh s.heap m → ∃ m', (s.step u).msgs[i]? = some m' ∧ Kept s.heap m (s.step u).heap m' :=
    fun i m hm hf => kept_step s i m hm hf u (hu _ _)
  have old : (s.step u).msgs.length = s.msgs.length → ∀ (i : Nat) (m' : MsgPtr), (s.step u).msgs[i]? = some m' →
      Fresh (s.step u).heap m' ∧ e.msgs[i]? = some (m'.octets (s.step u).heap) := by
    intro hl i m' hi
    have hi' : i < s.msgs.length := hl ▸ (List.getElem?_eq_some_iff.mp hi).1
    obtain ⟨hf, he⟩ := h.each i s.msgs[i] (List.getElem?_eq_getElem hi')
    obtain ⟨m'', h3, h4⟩ := hk i _ (List.getElem?_eq_getElem hi') hf
    rw [hi] at h3
    cases h3
    exact ⟨h4.fresh hf, by rw [he, h4.octets]⟩
  cases u with
  | param p => exact ⟨hv, hp.trans (by rw [h.params]; rfl), h.count, h.sent, old rfl⟩
  | data a d => exact absurd List.mem_cons_self (hu [a] 0)
  | field i n a => exact absurd rfl (hu [] i)
  | length a => exact ⟨hv, hp.trans h.params, h.count, h.sent, old rfl⟩
  | new k args =>
    refine h.make _ (fun a ha => ?_) hv hp hk _ ?_
    · simp only [targets, List.mem_filterMap] at ha
      obtain ⟨n, -, hn⟩ := ha
      exact (ptr_lt hn).1
    · simp only [MsgPtr.octets, targets]
      have hc : (UInt8.ofNat k.cls).toNat = k.cls := by cases k <;> rfl
      have ht : (UInt8.ofNat k.typ).toNat = k.typ := by cases k <;> rfl
      rw [hc, ht, tlvs_filterMap]
      have : ∀ n ∈ k.params, ((s.ptr (args n)).bind fun a => s.heap[a]?.map given) = (args n).bind (e.params[·]?) := by
        intro n _
        cases args n with
        | none => rfl
        | some a =>
          simp only [ptr, Option.bind_some, ← h.get a, Option.filter_some]
          split
          · rfl
          · rename_i hn
            simp only [decide_eq_true_eq, Nat.not_lt] at hn
            rw [List.getElem?_eq_none hn]
            rfl
      rw [List.map_congr_left this]
      rfl
  | generic ver cls typ args =>
    refine h.make _ (fun a ha => ?_) hv hp hk _ ?_
    · simp only [targets, List.mem_filter, decide_eq_true_eq] at ha
      exact ha.2
    · simp only [MsgPtr.octets, targets]
      congr 1
      clear hu hv hp hk old
      induction args with
      | nil => rfl
      | cons a as ih =>
        rw [List.filter_cons, List.map_cons, ← h.get a]
        split
        · rw [List.map_cons]
          cases hg : s.heap[a]?.map given with
          | none => simp only [presentTlvs]; exact ih
          | some x => rcases x with ⟨t, v⟩; simp only [presentTlvs]; rw [ih]
        · rename_i hn
          simp only [decide_eq_true_eq, Nat.not_lt] at hn
          rw [List.getElem?_eq_none hn]
          exact ih
  | lengths i =>
    have hl : (s.step (.lengths i)).msgs.length = s.msgs.length := by
      simp only [step]
      split
      · rfl
      · exact List.length_set
    refine ⟨hv, hp.trans h.params, h.count.trans hl.symm, ?_, old hl⟩
    simp only [step]
    split <;> exact h.sent
  | marshal i =>
    have hl : (s.step (.marshal i)).msgs.length = s.msgs.length := by
      simp only [step]
      split
      · rfl
      · split
        · exact List.length_set
        · rfl
    refine ⟨hv, hp.trans h.params, h.count.trans hl.symm, ?_, old hl⟩
    cases hi : s.msgs[i]? with
    | none =>
      have : e.msgs[i]? = none := by
        rw [List.getElem?_eq_none_iff] at hi ⊢
        rw [h.count]; exact hi
      simp only [step, hi, Eager.step, this, Option.map_none, Option.toList_none, List.append_nil, h.sent]
    | some m =>
      obtain ⟨hf, he⟩ := h.each i m hi
      rw [sent_of_fresh s i m hi hf (h.valid m (List.mem_of_getElem? hi)).2.2, h.sent]
      simp only [Eager.step, he, Option.map_some, Option.toList_some, MsgPtr.octets]

end Store

/-- C107: for programs that do not assign to fields: however parameters are shared, what `MarshalBinary` returns is what it would return if every message
consisted, from the moment it was made, of its octets. -/
theorem c107_shared (us : List Use) (hu : ∀ u ∈ us, ∀ as i, ¬ Changes as i u) : (start.run us).sent = (us.foldl Eager.step {}).sent := by
  have h0 : Agree start {} := ⟨valid_start, rfl, rfl, rfl, fun i m h => by cases h⟩
  suffices ∀ (s : Store) (e : Eager), Agree s e → Agree (s.run us) (us.foldl Eager.step e) from (this _ _ h0).sent
  induction us with
  | nil => exact fun s e h => h
  | cons u us ih =>
    intro s e h
    exact ih (fun v hv => hu v (List.mem_cons_of_mem _ hv)) _ _ (agree_step h u (hu u List.mem_cons_self))

namespace MsgPtr

theorem build_congr (h : Header) (f g : PName → Option Param) (l : List Param) (k : Kind) (hfg : ∀ n ∈ k.params, f n = g n) :
    M3UA.build h f l (some k) = M3UA.build h g l (some k) := by
  cases k <;> simp only [Kind.params, List.mem_cons, List.not_mem_nil, or_false, forall_eq_or_imp, forall_eq] at hfg <;> simp only [M3UA.build, hfg]

theorem build_setLength (h : Header) (f : PName → Option Param) (l : List Param) (k : Option Kind) :
    (M3UA.build h f l k).setLength =
      M3UA.build { h with length := UInt32.ofNat (M3UA.build h (fun n => (f n).map Param.setLength) (l.map Param.setLength) k).marshalLen }
        (fun n => (f n).map Param.setLength) (l.map Param.setLength) k := by
  rcases k with _ | k
  · rfl
  · cases k <;> rfl

end MsgPtr

/-- C107: `SetLength` through pointers, seen by the message itself, is that of the model with values, for all 20 types. -/
theorem c107_same (heap : List Param) (m : MsgPtr) : (m.setLength heap).2.read (m.setLength heap).1 = (m.read heap).setLength := by
  have hr : ∀ hd : Header, MsgPtr.read (m.setLength heap).1 { m with header := hd } =
      M3UA.build hd (fun n => ((m.named n).bind (heap[·]?)).map Param.setLength) ((m.listed.filterMap (heap[·]?)).map Param.setLength) m.kind := by
    intro hd
    cases hk : m.kind with
    | none =>
      simp only [MsgPtr.read, hk, M3UA.build, M3UA.generic.injEq, Msg.Generic.mk.injEq, true_and, List.map_filterMap]
      refine filterMap_eq _ _ _ fun a ha => ?_
      rw [length_get, if_pos (by rw [targets, hk]; exact ha)]
    | some k =>
      simp only [MsgPtr.read, hk]
      have hl : ∀ l l' : List Param, ∀ f, M3UA.build hd f l (some k) = M3UA.build hd f l' (some k) := by intros; cases k <;> rfl
      rw [hl _ ((m.listed.filterMap (heap[·]?)).map Param.setLength)]
      refine MsgPtr.build_congr _ _ _ _ k fun n hn => ?_
      cases hx : m.named n with
      | none => rfl
      | some a =>
        simp only [Option.bind_some]
        rw [length_get, if_pos (by rw [targets, hk]; exact List.mem_filterMap.mpr ⟨n, hn, hx⟩)]
  have h0 : m.read (m.setLength heap).1 = _ := hr m.header
  show MsgPtr.read (m.setLength heap).1 { m with header := { m.header with length := UInt32.ofNat (m.read (m.setLength heap).1).marshalLen } } = _
  rw [hr, h0, MsgPtr.read.eq_def heap m, MsgPtr.build_setLength]

/-- C107: so what a constructor returns is what it returns in the model with values: the message with the given parameters, their lengths set. -/
theorem c107_new (s : Store) (k : Kind) (args : PName → Option Nat) :
    ∃ m, (s.step (.new k args)).msgs = s.msgs ++ [m] ∧ M3UA.Constructed (m.read (s.step (.new k args)).heap) ∧
      (m.read (s.step (.new k args)).heap).kind = some k ∧
      ∀ n ∈ k.params, (m.read (s.step (.new k args)).heap).field n = ((args n).bind (s.heap[·]?)).map Param.setLength := by
  have hs := c107_same s.heap ⟨some k, ⟨1, 0, UInt8.ofNat k.cls, UInt8.ofNat k.typ, 0, []⟩, fun n => s.ptr (args n), []⟩
  refine ⟨(MsgPtr.setLength s.heap ⟨some k, ⟨1, 0, UInt8.ofNat k.cls, UInt8.ofNat k.typ, 0, []⟩, fun n => s.ptr (args n), []⟩).2, rfl, ?_⟩
  have he : ∀ n, (s.ptr (args n)).bind (s.heap[·]?) = (args n).bind (s.heap[·]?) := by
    intro n
    cases args n with
    | none => rfl
    | some a =>
      simp only [ptr, Option.bind_some, Option.filter_some]
      split
      · rfl
      · rename_i hn
        simp only [decide_eq_true_eq, Nat.not_lt] at hn
        rw [List.getElem?_eq_none hn]
        rfl
  rw [show MsgPtr.read (s.step (.new k args)).heap _ = _ from hs]
  simp only [MsgPtr.read, he]
  refine ⟨?_, ?_, fun n hn => ?_⟩
  · cases k
    · exact .error _ _ _ _ _
    · exact .notify _ _ _ _
    · exact .data _ _ _ _
    · exact .duna _ _ _ _
    · exact .dava _ _ _ _
    · exact .daud _ _ _ _
    · exact .scon _ _ _ _ _ _
    · exact .dupu _ _ _ _ _
    · exact .drst _ _ _ _
    · exact .aspUp _ _
    · exact .aspDown _
    · exact .heartbeat _
    · exact .aspUpAck _ _
    · exact .aspDownAck _
    · exact .heartbeatAck _
    · exact .aspActive _ _ _
    · exact .aspInactive _ _
    · exact .aspActiveAck _ _ _
    · exact .aspInactiveAck _ _
  · cases k <;> rfl
  · cases k <;> cases n <;> first | rfl | (exact absurd hn (by decide))

namespace Sharing

/-- Two ASP Down with the same INFO String, which is changed afterwards. -/
def twice (d : Bytes) : List Use :=
  [.param (Param.newInfoString [0x61]), .new .aspDown fun n => if n = .infoString then some 0 else none,
    .new .aspDown fun n => if n = .infoString then some 0 else none, .data 0 d]

end Sharing

/-- C107: the assignments are excluded for a reason. If the value of a parameter is changed, and then `SetLength` of one message that holds it is called,
another that holds it is marshalled with the new value and a wrong length of the message. -/
theorem c107_stale : ∃ b, (start.run (Sharing.twice [0x61, 0x62, 0x63, 0x64, 0x65] ++ [.lengths 0, .marshal 1])).sent = [(1, b)] ∧
    b.length = 20 ∧ field32 b 4 = 16 :=
  ⟨[1, 0, 3, 2, 0, 0, 0, 16, 0, 4, 0, 9, 0x61, 0x62, 0x63, 0x64, 0x65, 0, 0, 0], by decide +kernel, rfl, by decide⟩

/-- C107: without `SetLength` the parameter has the old length, and the peer cannot parse the message. -/
theorem c107_broken : ∃ b e, (start.run (Sharing.twice [0x61, 0x62, 0x63, 0x64, 0x65] ++ [.marshal 1])).sent = [(1, b)] ∧ M3UA.parse b = .err e :=
  ⟨[1, 0, 3, 2, 0, 0, 0, 16, 0, 4, 0, 5, 0x61, 0x62, 0x63, 0x64, 0x65, 0, 0, 0], .paramInvalidLength, by decide +kernel, by decide +kernel⟩

/-! ## Instances -/

/-- For `c107_shared` and `c107_lengths`: two messages of different kinds with one parameter, a second one, and a parameter that is made later. -/
def Sharing.mixed : List Use :=
  [.param (Param.newInfoString [0x61]), .new .aspDown fun n => if n = .infoString then some 0 else none,
    .param (Param.newRoutingContext [7]), .new .aspInactive fun n => if n = .infoString then some 0 else if n = .routingContext then some 1 else none,
    .lengths 0, .marshal 1, .generic 1 9 9 [0, 0], .length 0, .marshal 0, .marshal 2, .marshal 0]

example : ∀ u ∈ Sharing.mixed, ∀ as i, ¬ Changes as i u := by
  intro u hu as i
  simp only [Sharing.mixed, List.mem_cons, List.not_mem_nil, or_false] at hu
  rcases hu with rfl | rfl | rfl | rfl | rfl | rfl | rfl | rfl | rfl | rfl | rfl <;> exact id

example : (start.run Sharing.mixed).sent =
    [(1, [1, 0, 4, 2, 0, 0, 0, 24, 0, 6, 0, 8, 0, 0, 0, 7, 0, 4, 0, 5, 0x61, 0, 0, 0]), (0, [1, 0, 3, 2, 0, 0, 0, 16, 0, 4, 0, 5, 0x61, 0, 0, 0]),
      (2, [1, 0, 9, 9, 0, 0, 0, 24, 0, 4, 0, 5, 0x61, 0, 0, 0, 0, 4, 0, 5, 0x61, 0, 0, 0]), (0, [1, 0, 3, 2, 0, 0, 0, 16, 0, 4, 0, 5, 0x61, 0, 0, 0])] := by
  decide +kernel

/-- For `c107_lengths`: the value is changed, then the lengths of message 0 are set, then message 1 loses the parameter. -/
example : ∃ m, (start.run (Sharing.twice [0x62, 0x63])).msgs[0]? = some m ∧ m.targets = [0] ∧
    (∀ u ∈ [Use.field 1 .infoString none, .lengths 1, .data 5 []], ¬ Changes m.targets 0 u) ∧
    (start.run (Sharing.twice [0x62, 0x63] ++ .lengths 0 :: [.field 1 .infoString none, .lengths 1, .data 5 []] ++ [.marshal 0])).sent =
      [(0, [1, 0, 3, 2, 0, 0, 0, 16, 0, 4, 0, 6, 0x62, 0x63, 0, 0])] := by
  have h : (start.run (Sharing.twice [0x62, 0x63])).msgs[0]?.map MsgPtr.targets = some [0] := by decide +kernel
  obtain ⟨m, h1, h2⟩ := Option.map_eq_some_iff.mp h
  refine ⟨m, h1, h2, ?_, by decide +kernel⟩
  rw [h2]
  intro u hu
  simp only [List.mem_cons, List.not_mem_nil, or_false] at hu
  rcases hu with rfl | rfl | rfl
  · exact (by decide : ¬ 1 = 0)
  · exact id
  · exact (by decide : ¬ 5 ∈ [0])

end M3
