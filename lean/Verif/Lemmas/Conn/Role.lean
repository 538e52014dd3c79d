import Verif.Lemmas.Conn.Code
import Verif.Lemmas.Conn.Count
import Verif.Lemmas.Conn.Path

/- Who does what: which goroutines there are and which operations they use. -/

set_option autoImplicit false
set_option linter.unusedSimpArgs false

namespace M3.Conn.Role

/-- The goroutines of a connection. -/
inductive Cl where
  | main | start | monitor | beat | packet | data | api
  deriving DecidableEq

def cl : Gor → Cl
  | .main => .main
  | .start => .start
  | .monitor | .monitorLoop => .monitor
  | .heartbeat | .beatLoop => .beat
  | .packet _ => .packet
  | .data _ => .data
  | .api _ => .api

/-- Operations used by each goroutine only. -/
def role : Op → Gor → Bool
  | .monSelect, g | .read _, g | .spawn (.packet _), g | .sendEst, g => g = .monitorLoop
  | .estSelect, g | .opened _, g => g = .main
  | .ackSelect, g | .sleepSelect, g | .rand, g | .setBeat, g => g = .beatLoop
  | .waitEnter, g | .waitLeave, g => g = .heartbeat
  | .done _, g => cl g = .api
  | .recvData, g => match g with
    | .api (.read _) | .api .readPD => true
    | _ => false
  | .sendData _, g => cl g = .data
  | .sendAck, g | .spawn (.data _), g => cl g = .packet
  | .sendState _, g => cl g = .packet ∨ g = .start
  | .sendErr _, g => cl g = .packet ∨ cl g = .data ∨ g = .beatLoop
  | .putSt _, g | .closeEst, g | .closeAck, g | .closeData, g | .lock, g | .unlock, g | .getSt, g =>
    g = .monitorLoop ∨ g = .api .close
  | .spawn .heartbeat, g => g = .monitor
  | .spawn _, _ => false
  | .sctpClose, g => g = .monitorLoop ∨ g = .api .close ∨ g = .main
  | _, _ => true

def D : Disc Cl where
  start g s := s = cl g
  born := cl
  ok g s o := s = cl g ∧ role o g = true
  may _ _ _ _ := True
  next _ s _ _ := s

theorem D_ok {g s o} : D.ok g s o ↔ s = cl g ∧ role o g = true := Iff.rfl
theorem D_may {g s o r} : D.may g s o r = True := rfl
theorem D_next {g s o r} : D.next g s o r = s := rfl
theorem D_post {s r} : D.post s r ↔ ∀ g, r = some g → s = cl g := by
  cases r <;> simp [Disc.post, D]

theorem good (E : Env) : D.Good E where
  main := rfl
  init := rfl
  monitor := rfl
  api _ := rfl
  spawn g s g' h := rfl
  body g s hs := by
    obtain rfl := hs
    cases g with
    | monitorLoop =>
      obtain ⟨mode, cfg, hb, ms⟩ := E
      cases mode <;> wp_code [D_ok, D_may, D_next, role, D_post, cl] <;> simp
    | packet raw =>
      rw [body, packet_eq]
      cases hp : M3UA.parse raw with
      | ok m =>
        cases m <;> wp_code [D_ok, D_may, D_next, role, D_post, cl] <;> simp
      | _ => wp_code [D_post] <;> simp
    | api c =>
      cases c <;> wp_code [D_ok, D_may, D_next, role, D_post, cl] <;> simp
    | _ => wp_code [D_ok, D_may, D_next, role, D_post, cl] <;> simp_all

/-- The goroutines are numbered in the order in which they were started. -/
def Numbered (i : Nat) (c : Cl) : Prop := (c = .main ↔ i = 0) ∧ (c = .start ↔ i = 1) ∧ (c = .monitor ↔ i = 2)

structure I (tr : List Rec) (ss : List Cl) : Prop where
  len : 3 ≤ ss.length
  num : ∀ (i : Nat) (c : Cl), ss[i]? = some c → Numbered i c
  own : ∀ x ∈ tr, ss[x.tid]? = some (cl x.gor) ∧ role x.ev.op x.gor = true

theorem I.append {tr : List Rec} {ss : List Cl} (h : I tr ss) (c : Cl) (hc : c ≠ .main ∧ c ≠ .start ∧ c ≠ .monitor) :
    I tr (ss ++ [c]) := by
  refine ⟨by have := h.len; simp; omega, fun i c' hi => ?_, fun x hx => ?_⟩
  · by_cases hl : i < ss.length
    · rw [List.getElem?_append_left hl] at hi; exact h.num i c' hi
    · rw [List.getElem?_append_right (by omega)] at hi
      have := List.mem_of_getElem? hi
      simp only [List.mem_singleton] at this
      subst this
      have := h.len
      exact ⟨⟨fun e => absurd e hc.1, by omega⟩, ⟨fun e => absurd e hc.2.1, by omega⟩, ⟨fun e => absurd e hc.2.2, by omega⟩⟩
  · obtain ⟨h1, h2⟩ := h.own x hx
    exact ⟨by rw [List.getElem?_append_left (List.getElem?_eq_some_iff.mp h1).1]; exact h1, h2⟩

theorem I.snoc {tr : List Rec} {ss : List Cl} (h : I tr ss) {i : Nat} {g : Gor} {s : Cl} {o : Op} (r : Resp o)
    (hs : ss[i]? = some s) (ho : D.ok g s o) : I (tr ++ [⟨i, g, o, r⟩]) ss := by
  refine ⟨h.len, h.num, fun x hx => ?_⟩
  rcases List.mem_append.mp hx with hx | hx
  · exact h.own x hx
  · simp only [List.mem_singleton] at hx; subst hx
    exact ⟨by rw [hs, ho.1], ho.2⟩

theorem pres : Pres D (fun _ tr ss => I tr ss) where
  env sh sh' tr ss h he := h
  call sh tr ss c h _ := h.append _ (by simp [D, cl])
  run sh sh' tr ss i g s o r h hs hok hx := by
    refine ⟨trivial, ?_⟩
    show I _ (ss.set i s ++ (spawned o).map cl)
    rw [set_self hs]
    have h' := h.snoc r hs hok
    have hro : role o g = true := hok.2
    clear hx
    cases o with
    | spawn g' =>
      refine h'.append _ ?_
      cases g' <;> simp [role] at hro <;> simp [cl]
    | _ => simpa [spawned] using h'
  sync sh sh' tr ss i j gi gj si sj oi oj ri rj h hij hsi hsj hoi hoj hx := by
    refine ⟨trivial, trivial, ?_⟩
    show I _ ((ss.set i si).set j sj)
    rw [set_self hsi, set_self hsj]
    have := (h.snoc ri hsi hoi).snoc rj hsj hoj
    simpa using this
  crash sh tr ss i g s o h _ _ _ := h

theorem num_init (i : Nat) (c : Cl) (h : [Cl.main, .start, .monitor][i]? = some c) : Numbered i c := by
  rcases i with _ | _ | _ | i <;> simp at h <;> subst h <;> simp [Numbered]

/-- Every entry of the trace is made by a goroutine whose role it is; there is one `main`, one `start` and one
monitor, with numbers 0, 1 and 2. -/
theorem reach {E : Env} {w : World} (h : Reachable E w) :
    ∀ x ∈ w.trace, Numbered x.tid (cl x.gor) ∧ role x.ev.op x.gor = true := by
  obtain ⟨ss, -, hi⟩ := Disc.reach (good E) pres ⟨by simp [D], num_init, by simp⟩ h
  intro x hx
  obtain ⟨h1, h2⟩ := hi.own x hx
  exact ⟨hi.num _ _ h1, h2⟩

/-- The same for the operation a goroutine is waiting for. -/
theorem pending {E : Env} {w : World} (h : Reachable E w) {i : Nat} {g : Gor} {hist : List Ev} {o : Op}
    {k : Resp o → Prog (Option Gor)} (ht : w.threads[i]? = some ⟨g, hist, .op o k⟩) :
    Numbered i (cl g) ∧ role o g = true := by
  obtain ⟨ss, hl, hi⟩ := Disc.reach (good E) pres ⟨by simp [D], num_init, by simp⟩ h
  obtain ⟨s, hs⟩ := getElem?_some_of_length hl.1 ht
  have := (wp_op.mp (hl.2 i _ s ht hs)).1
  have h1 : s = cl g := this.1
  exact ⟨h1 ▸ hi.num _ _ hs, this.2⟩

theorem monSelect {E : Env} {w : World} (h : Reachable E w) {x : Rec} (hx : x ∈ w.trace) (ho : x.ev.op = .monSelect) :
    x.tid = 2 ∧ x.gor = .monitorLoop := by
  obtain ⟨h1, h2⟩ := reach h x hx
  rw [ho] at h2
  have hg : x.gor = .monitorLoop := by simpa [role] using h2
  rw [hg] at h1
  exact ⟨h1.2.2.mp rfl, hg⟩

/-- Sending on an unbuffered channel. -/
def sending : Op → Bool
  | .sendErr _ | .sendState _ | .sendAck | .sendEst => true
  | _ => false

/-- The entries of a sender and of the receiver that it met. -/
def Met (x y : Rec) : Prop := ∃ sh sh', Sync sh x.ev.op x.ev.resp y.ev.op y.ev.resp sh'

/-- What is sent is received at once. -/
theorem sent {E : Env} {w : World} (h : Reachable E w) {l₁ l₂ : List Rec} {x : Rec} (hl : w.trace = l₁ ++ x :: l₂)
    (hx : sending x.ev.op = true) : ∃ y l₃, l₂ = y :: l₃ ∧ Met x y := by
  rw [Reachable] at h
  have hi : (M3.Conn.init E).trace = [] := rfl
  generalize M3.Conn.init E = w' at h hi
  induction h generalizing l₂ with
  | refl => rw [hi] at hl; simp at hl
  | @tail a c hab hs ih =>
    have old : ∀ t b, a.trace = l₁ ++ x :: t → l₂ = t ++ b → ∃ y l₃, l₂ = y :: l₃ ∧ Met x y := by
      intro t b ht hb
      obtain ⟨y, l₃, h1, h2⟩ := ih ht
      exact ⟨y, l₃ ++ b, by rw [hb, h1]; rfl, h2⟩
    cases hs with
    | env => exact old _ [] hl (by simp)
    | call => exact old _ [] hl (by simp)
    | loop => exact old _ [] hl (by simp)
    | crash => exact old _ [] hl (by simp)
    | run i g hist o k r _ ht hxe =>
      rcases split_append hl with ⟨c, h1, h2⟩ | ⟨c, h1, h2⟩
      · exact old _ _ h1 h2
      · exfalso
        rcases c with _ | ⟨y, c⟩
        · simp only [List.nil_append, List.cons.injEq] at h2
          obtain ⟨rfl, -⟩ := h2
          cases hxe <;> cases hx
        · simp at h2
    | sync i j gi gj hi hj oi oj ki kj ri rj _ _ hti htj hxe =>
      rcases split_append hl with ⟨c, h1, h2⟩ | ⟨c, h1, h2⟩
      · exact old _ _ h1 h2
      · rcases c with _ | ⟨y, _ | ⟨z, c⟩⟩
        · simp only [List.nil_append, List.cons.injEq] at h2
          obtain ⟨rfl, rfl⟩ := h2
          exact ⟨_, [], rfl, _, _, hxe⟩
        · exfalso
          simp only [List.cons_append, List.nil_append, List.cons.injEq] at h2
          obtain ⟨rfl, rfl, -⟩ := h2
          cases hxe <;> cases hx
        · simp at h2

/-- What is received was sent just before. -/
theorem received {E : Env} {w : World} (h : Reachable E w) {l₁ l₂ : List Rec} {x : Rec} (hl : w.trace = l₁ ++ x :: l₂)
    (hx : ∀ sh sh', ¬ Exec sh x.ev.op x.ev.resp sh') (hs : sending x.ev.op = false) :
    ∃ y l₃, l₁ = l₃ ++ [y] ∧ Met y x := by
  rcases h.at hl with ⟨w₀, sh', k, hist, h₀, rfl, -, he⟩ | ⟨w₀, sh', y, h₀, ⟨rfl, hy⟩ | ⟨rfl, hy⟩⟩
  · exact absurd he (hx _ _)
  · obtain ⟨_, _, oy, ry⟩ := y
    obtain ⟨_, _, ox, rx⟩ := x
    cases hy <;> cases hs
  · exact ⟨y, _, rfl, _, _, hy⟩

/-- What is sent to the monitor is received by the monitor. -/
def Meets (x y : Rec) : Prop :=
  (∀ e, x.ev.op = .sendErr e → y = ⟨2, .monitorLoop, .monSelect, .err e⟩) ∧
  (∀ s, x.ev.op = .sendState s → y = ⟨2, .monitorLoop, .monSelect, .state s⟩)

theorem handoff {E : Env} {w : World} (h : Reachable E w) {l₁ l₂ : List Rec} {x : Rec} (hl : w.trace = l₁ ++ x :: l₂)
    (hx : (∃ e, x.ev.op = .sendErr e) ∨ ∃ s, x.ev.op = .sendState s) :
    ∃ y l₃, l₂ = y :: l₃ ∧ Meets x y := by
  obtain ⟨y, l₃, rfl, sh, sh', hm⟩ := sent h hl (by rcases hx with ⟨e, hx⟩ | ⟨s, hx⟩ <;> rw [hx] <;> rfl)
  refine ⟨y, l₃, rfl, ?_⟩
  have hy := @monSelect E w h y (by rw [hl]; simp)
  obtain ⟨_, _, oy, ry⟩ := y
  obtain ⟨_, _, ox, rx⟩ := x
  constructor <;> intro e he <;> simp only at he <;> subst he <;> cases hm <;> obtain ⟨h1, h2⟩ := hy rfl <;>
    simp only at h1 h2 <;> subst h1 h2 <;> rfl

end M3.Conn.Role
