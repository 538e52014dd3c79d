import Verif.Lemmas.Conn.Code
import Verif.Lemmas.Conn.Count
import Verif.Lemmas.Conn.Path
import Verif.Spec.Flow

/- What becomes of a received datagram: it is handled by one goroutine, which answers it at most once or passes its
payload on at most once. -/

set_option autoImplicit false
set_option linter.unusedSimpArgs false

namespace M3.Conn.Flow

open Spec

/-- What a goroutine may still do with a received datagram. -/
inductive T where
  | none
  /-- pass it on, or answer it -/
  | raw (b : Bytes)
  /-- queue its payload -/
  | data (m : Msg.Data)
  /-- return its payload to the user -/
  | got (pd : ProtocolDataPayload)

/-- The goroutine as far as it belongs to a datagram. -/
def key : Gor → Option (Bytes ⊕ Msg.Data)
  | .packet b => some (.inl b)
  | .data m => some (.inr m)
  | _ => Option.none

/-- The answer to a heartbeat: the same message with another type. -/
def echo (b : Bytes) : Option Bytes :=
  match M3UA.parse b with
  | .ok (.heartbeat m) => some (M3UA.heartbeat { m with header := { m.header with typ := 6 } }).wire
  | _ => Option.none

/-- `d` is an answer to `b`, going by class and type, and for a heartbeat exactly. -/
def Answer (b d : Bytes) : Prop :=
  (meaning b = some .aspUp ∧ octets d = (3, 4)) ∨ (meaning b = some .aspDown ∧ octets d = (3, 5)) ∨
  (meaning b = some .aspActive ∧ octets d = (4, 3)) ∨ (meaning b = some .aspInactive ∧ octets d = (4, 4)) ∨
  (meaning b = some .heartbeat ∧ octets d = ((octets b).1, 6) ∧ echo b = some d)

def wrote (g : Gor) (s : T) (d : Bytes) : Prop :=
  match g with
  | .packet b => s = .raw b ∧ Answer b d
  | .monitorLoop => octets d ∈ ([(0, 0), (3, 1), (4, 1)] : List (UInt8 × UInt8))
  | .beatLoop => octets d = (3, 3)
  | .api _ => True
  | _ => False

/-- A payload is returned by who got it. -/
def gave (s : T) (res : ApiRes) : Prop :=
  match res with
  | .data .. | .pd _ => ∃ pd, s = .got pd ∧ yields pd res
  | _ => True

def ok (g : Gor) (s : T) : Op → Prop
  | .spawn (.packet b) => s = .raw b
  | .spawn (.data m) => ∃ b, s = .raw b ∧ meaning b = some .data ∧ M3UA.parse b = .ok (.data m)
  | .spawn .heartbeat => True
  | .spawn _ => False
  | .write d _ => wrote g s d
  | .sendData pd => ∃ m p, s = .data m ∧ m.protocolData = some p ∧ payloadOf p = some pd
  | .read _ => s = .none
  | .recvData => s = .none
  | .done res => gave s res
  | _ => True

def next (s : T) : (o : Op) → Resp o → T
  | .read _, some b => .raw b
  | .spawn (.packet _), _ | .spawn (.data _), _ => .none
  | .write .., _ => .none
  | .sendData _, _ => .none
  | .recvData, some pd => .got pd
  | .done _, _ => .none
  | _, _ => s

def born : Gor → T
  | .packet b => .raw b
  | .data m => .data m
  | _ => .none

def D : Disc (Option (Bytes ⊕ Msg.Data) × T) where
  start g s := s = (key g, born g)
  born g := (key g, born g)
  ok g s o := s.1 = key g ∧ ok g s.2 o
  may _ _ _ _ := True
  next _ s o r := (s.1, next s.2 o r)

theorem D_ok {g s o} : D.ok g s o = (s.1 = key g ∧ ok g s.2 o) := rfl
theorem D_may {g s o r} : D.may g s o r = True := rfl
theorem D_next {g s o r} : D.next g s o r = (s.1, next s.2 o r) := rfl
theorem D_post {s r} : D.post s r ↔ ∀ g, r = some g → s = (key g, born g) := by
  cases r <;> simp [Disc.post, D]

theorem octets_wire (m : M3UA) : octets m.wire = (m.header.cls, m.header.typ) := by
  rw [octets, m.wire_octets.2.1, m.wire_octets.2.2]

theorem octets_reply {E : Env} {e : CErr} {m : M3UA} (h : reply E e = some m) : octets m.wire = (0, 0) := by
  rw [octets_wire]
  cases e <;> simp only [reply, Option.some.injEq, reduceCtorEq] at h <;> subst h <;> rfl

theorem octets_aspUp (a b : Option Param) : octets (M3UA.aspUp (Msg.AspUp.new a b)).wire = (3, 1) := octets_wire _

theorem octets_aspActive (a b c : Option Param) : octets (M3UA.aspActive (Msg.AspActive.new a b c)).wire = (4, 1) :=
  octets_wire _

theorem meaning_ok {raw : Bytes} {m : M3UA} (h : M3UA.parse raw = .ok m) (hv : m.version = 1) : meaning raw = m.kind := by
  have := (M3UA.parse_octets h).1
  simp only [meaning, h, this, hv, if_true]

theorem good (E : Env) : D.Good E where
  main := rfl
  init := rfl
  monitor := rfl
  api _ := rfl
  spawn g s g' h := rfl
  body g s hs := by
    obtain rfl := hs
    cases g with
    | monitorLoop =>
      obtain ⟨mode, cfg, hb, ms⟩ := E
      cases mode <;> wp_code [D_ok, D_may, D_next, ok, next, D_post, born, key, wrote] <;>
        simp +contextual [octets_aspUp, octets_aspActive, -Prod.mk.injEq] <;>
        exact fun _ _ h _ => .inl (octets_reply h)
    | packet raw =>
      rw [body, packet_eq]
      cases hp : M3UA.parse raw with
      | ok m =>
        by_cases hv : m.version = 1
        · have he := meaning_ok hp hv
          cases m <;> simp only [M3UA.kind] at he <;> 
            wp_code [D_ok, D_may, D_next, ok, next, D_post, born, key, wrote] <;>
            simp +contextual [he, hv, hp, Answer, echo, octets_wire, M3UA.header, sigInfo_std] <;>
            (intros; first | exact ⟨rfl, rfl⟩ | exact ((M3UA.parse_octets hp).2.1).symm)
        · cases m <;> wp_code [D_ok, D_may, D_next, ok, next, D_post, born, key] <;> simp [hv]
      | _ => wp_code [D_post] <;> simp
    | api c =>
      cases c <;> wp_code [D_ok, D_may, D_next, ok, next, D_post, born, key, wrote, gave, yields] <;> simp
      exact fun _ => ⟨_, rfl⟩
    | beatLoop =>
      wp_code [D_ok, D_may, D_next, ok, next, D_post, born, key, wrote]
      simp [octets_wire]
      exact fun _ _ => ⟨rfl, rfl⟩
    | _ => wp_code [D_ok, D_may, D_next, ok, next, D_post, born, key, wrote] <;> simp_all

/-- The origin of a goroutine. -/
def Src (tr : List Rec) : Option (Bytes ⊕ Msg.Data) → Prop
  | some (.inl b) => b ∈ receives tr
  | some (.inr m) => ∃ b ∈ receives tr, meaning b = some .data ∧ M3UA.parse b = .ok (.data m)
  | Option.none => True

/-- The origin of what a goroutine may still do. -/
def Tok (tr : List Rec) : T → Prop
  | .raw b => b ∈ receives tr
  | _ => True

/-- Numbers given to datagrams, DATA messages, payloads and trace entries. -/
structure Weights where
  raw : Bytes → Nat
  data : Msg.Data → Nat
  pd : ProtocolDataPayload → Nat
  got : ProtocolDataPayload → Nat
  ev : Rec → Nat

namespace Weights

def tok (W : Weights) : T → Nat
  | .none => 0
  | .raw b => W.raw b
  | .data m => W.data m
  | .got pd => W.got pd

/-- Nothing counts more than what it comes from. -/
structure Fair (W : Weights) : Prop where
  data : ∀ b m, meaning b = some .data → M3UA.parse b = .ok (.data m) → W.data m ≤ W.raw b
  pd : ∀ m p pd, m.protocolData = some p → payloadOf p = some pd → W.pd pd ≤ W.data m
  write : ∀ i g s d n r, wrote g s d → W.ev ⟨i, g, .write d n, r⟩ ≤ W.tok s
  recv : ∀ i g pd, W.ev ⟨i, g, .recvData, some pd⟩ + W.got pd ≤ W.pd pd
  done : ∀ i g s res, gave s res → W.ev ⟨i, g, .done res, ()⟩ ≤ W.tok s
  other : ∀ i g o r, (∀ d n, o ≠ .write d n) → (∀ res, o ≠ .done res) → (∀ pd, (⟨o, r⟩ : Ev) ≠ ⟨.recvData, some pd⟩) → W.ev ⟨i, g, o, r⟩ = 0

end Weights

structure I (W : Weights) (sh : Shared) (tr : List Rec) (ss : List (Option (Bytes ⊕ Msg.Data) × T)) : Prop where
  src : ∀ (j : Nat) s, ss[j]? = some s → Src tr s.1 ∧ Tok tr s.2
  bal : tot (fun s => W.tok s.2) ss + tot W.pd sh.dataQ + tot W.ev tr ≤ tot W.raw (receives tr)

theorem receives_append (a b : List Rec) : receives (a ++ b) = receives a ++ receives b := by
  simp [receives]

theorem Src.mono {tr : List Rec} {k : Option (Bytes ⊕ Msg.Data)} (xs : List Rec) (h : Src tr k) : Src (tr ++ xs) k := by
  rcases k with _ | b | m
  · trivial
  · show _ ∈ _; rw [receives_append]; exact List.mem_append_left _ h
  · obtain ⟨b, h1, h2⟩ := h
    exact ⟨b, by rw [receives_append]; exact List.mem_append_left _ h1, h2⟩

theorem Tok.mono {tr : List Rec} {t : T} (xs : List Rec) (h : Tok tr t) : Tok (tr ++ xs) t := by
  cases t with
  | raw b => show _ ∈ _; rw [receives_append]; exact List.mem_append_left _ h
  | _ => trivial

theorem I.step {W : Weights} {sh sh' : Shared} {tr : List Rec} {ss : List (Option (Bytes ⊕ Msg.Data) × T)} (h : I W sh tr ss)
    {i : Nat} {s : Option (Bytes ⊕ Msg.Data) × T} (hs : ss[i]? = some s) (t' : T) (gs : List (Option (Bytes ⊕ Msg.Data) × T))
    (xs : List Rec) (h1 : Tok (tr ++ xs) t') (h2 : ∀ g ∈ gs, Src (tr ++ xs) g.1 ∧ Tok (tr ++ xs) g.2)
    (h3 : W.tok t' + tot (fun s => W.tok s.2) gs + tot W.pd sh'.dataQ + tot W.ev xs ≤
      W.tok s.2 + tot W.pd sh.dataQ + tot W.raw (receives xs)) :
    I W sh' (tr ++ xs) (ss.set i (s.1, t') ++ gs) := by
  refine ⟨fun j t ht => ?_, ?_⟩
  · rcases mem_set_cases hs ht with ⟨-, rfl⟩ | ⟨-, h5⟩ | h5
    · exact ⟨(h.src i s hs).1.mono xs, h1⟩
    · exact ⟨(h.src j t h5).1.mono xs, (h.src j t h5).2.mono xs⟩
    · exact h2 t h5
  · have a := tot_set (fun s => W.tok s.2) (s.1, t') hs
    have b := h.bal
    rw [tot_append, receives_append, tot_append, tot_append]
    simp only at a h3 ⊢
    omega

theorem pres {W : Weights} (hW : W.Fair) : Pres D (I W) where
  env sh sh' tr ss h he := by cases he <;> exact ⟨h.src, h.bal⟩
  call sh tr ss c h _ := by
    refine ⟨fun j s hj => ?_, ?_⟩
    · by_cases hj' : j < ss.length
      · rw [List.getElem?_append_left hj'] at hj; exact h.src j s hj
      · rw [List.getElem?_append_right (by omega)] at hj
        have := List.mem_of_getElem? hj
        simp only [D, born, key, List.mem_singleton] at this
        subst this; exact ⟨trivial, trivial⟩
    · rw [tot_append]; exact h.bal
  run sh sh' tr ss i g s o r h hs hok hx := by
    obtain ⟨hk, hok⟩ := (show s.1 = key g ∧ ok g s.2 o from hok)
    refine ⟨trivial, ?_⟩
    show I W sh' (tr ++ [⟨i, g, o, r⟩]) (ss.set i (s.1, next s.2 o r) ++ (spawned o).map fun g => (key g, born g))
    obtain ⟨hsrc, htok⟩ := h.src i s hs
    have he := hW.other i g o r
    cases o with
    | read n =>
      have hs0 : s.2 = .none := hok
      refine h.step hs _ _ _ ?_ (by simp [spawned]) ?_
      · cases r with
        | none => rw [hs0]; trivial
        | some raw => show raw ∈ _; rw [receives_append]; exact List.mem_append_right _ (List.mem_singleton.mpr rfl)
      · have hq : sh'.dataQ = sh.dataQ := by cases hx <;> rfl
        have := he (by simp) (by simp) (by simp)
        rw [hq, hs0]
        cases r <;> simp [next, Weights.tok, spawned, tot, receives, received?, this]
        omega
    | write d n =>
      have hq : sh'.dataQ = sh.dataQ := by cases hx <;> rfl
      have := hW.write i g s.2 d n r hok
      refine h.step hs _ _ _ trivial (by simp [spawned]) ?_
      rw [hq]
      have h0 : W.tok .none = 0 := rfl
      simp [next, h0, spawned, tot, receives, received?]
      omega
    | sendData pd =>
      obtain ⟨m, p, h1, h2, h3⟩ := hok
      have h4 := hW.pd m p pd h2 h3
      have := he (by simp) (by simp) (by simp)
      refine h.step hs _ _ _ trivial (by simp [spawned]) ?_
      rw [h1]
      cases hx <;> simp [next, Weights.tok, spawned, tot, receives, received?, this] <;> omega
    | done res =>
      have hq : sh'.dataQ = sh.dataQ := by cases hx <;> rfl
      have : W.ev ⟨i, g, .done res, r⟩ ≤ _ := hW.done i g s.2 res hok
      refine h.step hs _ _ _ trivial (by simp [spawned]) ?_
      rw [hq]
      have h0 : W.tok .none = 0 := rfl
      simp [next, h0, spawned, tot, receives, received?]
      omega
    | recvData =>
      have hs0 : s.2 = .none := hok
      cases hx with
      | @recvData pd q hq =>
        have := hW.recv i g pd
        refine h.step hs _ _ _ trivial (by simp [spawned]) ?_
        rw [hq, hs0]
        simp [next, Weights.tok, spawned, tot, receives, received?] at this ⊢
        omega
      | recvDataClosed =>
        have := he (by simp) (by simp) (by simp)
        refine h.step hs _ _ _ (htok.mono _) (by simp [spawned]) ?_
        simp [next, Weights.tok, spawned, tot, receives, received?, this]
    | spawn g' =>
      have := he (by simp) (by simp) (by simp)
      cases hx
      cases g' with
      | packet b =>
        have hs0 : s.2 = .raw b := hok
        rw [hs0] at htok
        refine h.step hs _ _ _ trivial ?_ ?_
        · simpa [spawned, born, key] using ⟨Src.mono (k := some (.inl b)) _ htok, Tok.mono _ htok⟩
        · rw [hs0]; simp [next, Weights.tok, spawned, tot, receives, received?, this, born]
      | data m =>
        obtain ⟨b, hs0, h1, h2⟩ := hok
        rw [hs0] at htok
        refine h.step hs _ _ _ trivial ?_ ?_
        · simpa [spawned, born, key] using ⟨Src.mono (k := some (.inr m)) _ ⟨b, htok, h1, h2⟩, trivial⟩
        · have := hW.data b m h1 h2
          rw [hs0]; simp [next, Weights.tok, spawned, tot, receives, received?, *, born]
      | heartbeat =>
        refine h.step hs _ _ _ (htok.mono _) ?_ ?_
        · simpa [spawned, born, key] using ⟨trivial, trivial⟩
        · simp [next, Weights.tok, spawned, tot, receives, received?, this, born]
      | _ => cases hok
    | _ =>
      have := he (by simp) (by simp) (by simp)
      have hq : sh'.dataQ = sh.dataQ := by cases hx <;> rfl
      refine h.step hs _ _ _ (htok.mono _) (by simp [spawned]) ?_
      rw [hq]
      simp [next, Weights.tok, spawned, tot, receives, received?, this]
  sync sh sh' tr ss i j gi gj si sj oi oj ri rj h hij hsi hsj hoi hoj hx := by
    refine ⟨trivial, trivial, ?_⟩
    show I W sh' (tr ++ [⟨i, gi, oi, ri⟩, ⟨j, gj, oj, rj⟩]) ((ss.set i (si.1, next si.2 oi ri)).set j (sj.1, next sj.2 oj rj))
    have hj' : (ss.set i (si.1, next si.2 oi ri))[j]? = some sj := by rw [getElem?_set_ne' _ hij]; exact hsj
    have ei : W.ev ⟨i, gi, oi, ri⟩ = 0 := hW.other _ _ _ _ (by cases hx <;> simp) (by cases hx <;> simp) (by cases hx <;> simp)
    have ej : W.ev ⟨j, gj, oj, rj⟩ = 0 := hW.other _ _ _ _ (by cases hx <;> simp) (by cases hx <;> simp) (by cases hx <;> simp)
    have hni : next si.2 oi ri = si.2 := by cases hx <;> rfl
    have hnj : next sj.2 oj rj = sj.2 := by cases hx <;> rfl
    have hri : receives [⟨i, gi, oi, ri⟩] = [] := by cases hx <;> rfl
    have hrj : receives [⟨j, gj, oj, rj⟩] = [] := by cases hx <;> rfl
    have hq : sh'.dataQ = sh.dataQ := by cases hx <;> rfl
    have a := h.step (sh' := sh') hsi (next si.2 oi ri) [] [⟨i, gi, oi, ri⟩] (by rw [hni]; exact (h.src i si hsi).2.mono _) (by simp)
      (by rw [hq, hni, hri]; simp [tot, ei])
    rw [List.append_nil] at a
    have b := a.step (sh' := sh') hj' (next sj.2 oj rj) [] [⟨j, gj, oj, rj⟩]
      (by rw [hnj]; exact ((h.src j sj hsj).2.mono _).mono _) (by simp) (by rw [hnj, hrj]; simp [tot, ej])
    simpa using b
  crash sh tr ss i g s o h _ _ _ := ⟨h.src, h.bal⟩

theorem reach {E : Env} {W : Weights} (hW : W.Fair) {w : World} (h : Reachable E w) : ∃ ss, D.Linked w ss ∧ I W w.sh w.trace ss :=
  Disc.reach (good E) (pres hW) ⟨fun j s hj => by
    rcases j with _ | _ | _ | j <;> simp [D, key, born] at hj <;> subst hj <;> exact ⟨trivial, trivial⟩,
    by simp [D, born, tot, Weights.tok, init, receives]⟩ h

/-- The number given to the entries of the trace and the queue is at most the number given to the datagrams received. -/
theorem bound {E : Env} {W : Weights} (hW : W.Fair) {w : World} (h : Reachable E w) :
    tot W.ev w.trace + tot W.pd w.sh.dataQ ≤ tot W.raw (receives w.trace) := by
  obtain ⟨ss, -, hi⟩ := reach hW h
  have := hi.bal
  omega

/-- A goroutine that handles a datagram, or a DATA message, does so after it was received. -/
theorem pending {E : Env} {w : World} (h : Reachable E w) {i : Nat} {g : Gor} {hist : List Ev} {o : Op}
    {k : Resp o → Prog (Option Gor)} (ht : w.threads[i]? = some ⟨g, hist, .op o k⟩) : Src w.trace (key g) := by
  obtain ⟨ss, hl, hi⟩ := reach (W := ⟨fun _ => 0, fun _ => 0, fun _ => 0, fun _ => 0, fun _ => 0⟩) (by constructor <;> intros <;> simp) h
  obtain ⟨s, hs⟩ := getElem?_some_of_length hl.1 ht
  have h1 : s.1 = key g := (wp_op.mp (hl.2 i _ s ht hs)).1.1
  exact h1 ▸ (hi.src i s hs).1

/-- The same for entries of the trace. -/
theorem source {E : Env} {w : World} (h : Reachable E w) {l₁ l₂ : List Rec} {x : Rec} (hl : w.trace = l₁ ++ x :: l₂) :
    Src l₁ (key x.gor) := by
  obtain ⟨w₀, l₃, k, hist, h₀, rfl, ht⟩ := h.was hl
  exact (pending h₀ ht).mono l₃

end M3.Conn.Flow
