import Verif.Spec.Halt
import Verif.Lemmas.Conn.Role
import Verif.Lemmas.Conn.Hist
import Verif.Lemmas.Conn.Keep
import Verif.Props.Conn.Closing
import Verif.Props.Conn.Finish

/- What a goroutine of a halted connection is waiting for; the lock and the permission to read. -/

set_option autoImplicit false
set_option linter.unusedSimpArgs false

namespace M3.Conn.Halt

open Spec

/-- What is known if a goroutine cannot do this operation by itself. -/
def Waits (w : World) : Op → Prop
  | .state | .lock => w.sh.locked = true
  | .sendData _ => w.sh.dataClosed = false ∧ w.sh.ctxDone = false ∧ dataCap ≤ w.sh.dataQ.length
  | .recvData => w.sh.dataQ = [] ∧ w.sh.dataClosed = false
  | .read _ => w.sh.inbox = [] ∧ w.sh.sctpClosed = false
  | .monSelect => w.sh.ctxDone = false ∧ (∀ s, ¬ w.at (.sendState s)) ∧ ∀ e, ¬ w.at (.sendErr e)
  | .sendState _ | .sendErr _ => ¬ w.at .monSelect
  | .waitLeave => w.sh.cond ≠ .woken
  | .ackSelect => w.sh.ctxDone = false ∧ w.sh.ackClosed = false ∧ ¬ w.at .sendAck
  | .sendAck => w.sh.ackClosed = false ∧ ¬ w.at .ackSelect
  | .sleepSelect => w.sh.ctxDone = false
  | .estSelect => w.sh.estClosed = false ∧ ¬ w.at .sendEst
  | .sendEst => w.sh.estClosed = false ∧ ¬ w.at .estSelect
  | .intn n => n = 0
  | _ => False

theorem bool_not {b : Bool} (h : b = true → False) : b = false := by cases b <;> simp_all

section
variable {E : Env} {w : World} (hq : Halted E w)
include hq

theorem no_run {i : Nat} {g : Gor} {h : List Ev} {o : Op} {k : Resp o → Prog (Option Gor)} {sh' : Shared} (r : Resp o)
    (ht : w.threads[i]? = some ⟨g, h, .op o k⟩) (hx : Exec w.sh o r sh') (hf : foreign w.sh ⟨o, r⟩ = false) : False :=
  hq.rest _ (.run i g h o k r hq.alive ht hx hf)

theorem no_crash {i : Nat} {g : Gor} {h : List Ev} {o : Op} {k : Resp o → Prog (Option Gor)}
    (ht : w.threads[i]? = some ⟨g, h, .op o k⟩) (hx : Crashes w.sh o) : False :=
  hq.rest _ (.crash i g h o k hq.alive ht hx)

theorem no_loop {i : Nat} {g g' : Gor} {h : List Ev} (ht : w.threads[i]? = some ⟨g, h, .ret (some g')⟩) : False :=
  hq.rest _ (.loop i g g' h hq.alive ht)

theorem no_sync {i : Nat} {g : Gor} {h : List Ev} {o o' : Op} {k : Resp o → Prog (Option Gor)} {r : Resp o} {r' : Resp o'} {sh' : Shared}
    (ht : w.threads[i]? = some ⟨g, h, .op o k⟩) (ha : w.at o') (hne : o ≠ o')
    (hx : Sync w.sh o r o' r' sh' ∨ Sync w.sh o' r' o r sh') : False := by
  obtain ⟨j, ⟨g', h', p⟩, k', hj, hp⟩ := ha
  simp only at hp
  subst hp
  have hij : i ≠ j := by
    rintro rfl
    rw [ht] at hj
    cases hj
    exact hne rfl
  rcases hx with hx | hx
  · exact hq.rest _ (.sync i j g g' h h' o o' k k' r r' hq.alive hij ht hj hx)
  · exact hq.rest _ (.sync j i g' g h' h o' o k' k r' r hq.alive hij.symm hj ht hx)

theorem waits {i : Nat} {g : Gor} {h : List Ev} {o : Op} {k : Resp o → Prog (Option Gor)}
    (ht : w.threads[i]? = some ⟨g, h, .op o k⟩) : Waits w o := by
  cases o with
  | state =>
    cases hl : w.sh.locked with
    | true => exact hl
    | false => exact (no_run hq _ ht (.state hl) rfl).elim
  | lock =>
    cases hl : w.sh.locked with
    | true => exact hl
    | false => exact (no_run hq _ ht (.lock hl) rfl).elim
  | unlock => exact no_run hq _ ht .unlock rfl
  | getSt => exact no_run hq _ ht .getSt rfl
  | putSt s => exact no_run hq _ ht .putSt rfl
  | sendState s => exact fun ha => no_sync hq ht ha (by simp) (.inl .state)
  | sendErr e => exact fun ha => no_sync hq ht ha (by simp) (.inl .err)
  | sendEst =>
    have hc := bool_not fun hc => no_crash hq ht (.sendEst hc)
    exact ⟨hc, fun ha => no_sync hq ht ha (by simp) (.inl (.est hc))⟩
  | sendAck =>
    have hc := bool_not fun hc => no_crash hq ht (.sendAck hc)
    exact ⟨hc, fun ha => no_sync hq ht ha (by simp) (.inl (.ack hc))⟩
  | sendData pd =>
    have hc := bool_not fun hc => no_crash hq ht (.sendData hc)
    exact ⟨hc, bool_not fun hx => no_run hq _ ht (.sendDataCtx hx) rfl,
      Nat.le_of_not_lt fun hl => no_run hq _ ht (.sendData hc hl) rfl⟩
  | recvData =>
    have hd : w.sh.dataQ = [] := by
      cases hd : w.sh.dataQ with
      | nil => rfl
      | cons pd q => exact (no_run hq _ ht (.recvData hd) rfl).elim
    exact ⟨hd, bool_not fun hx => no_run hq _ ht (.recvDataClosed hd hx) rfl⟩
  | closeEst =>
    cases hc : w.sh.estClosed with
    | true => exact no_crash hq ht (.closeEst hc)
    | false => exact no_run hq _ ht (.closeEst hc) rfl
  | closeAck =>
    cases hc : w.sh.ackClosed with
    | true => exact no_crash hq ht (.closeAck hc)
    | false => exact no_run hq _ ht (.closeAck hc) rfl
  | closeData =>
    cases hc : w.sh.dataClosed with
    | true => exact no_crash hq ht (.closeData hc)
    | false => exact no_run hq _ ht (.closeData hc) rfl
  | info => exact no_run hq _ ht .info rfl
  | write b i =>
    cases hc : w.sh.sctpClosed with
    | true => exact no_run hq _ ht .writeFail (by simp [foreign, hc])
    | false => exact no_run hq (some 0) ht (.write hc) (by simp [foreign])
  | read n =>
    have hc : w.sh.sctpClosed = false := bool_not fun hc => no_run hq _ ht .readFail (by simp [foreign, hc])
    refine ⟨?_, hc⟩
    cases hd : w.sh.inbox with
    | nil => rfl
    | cons d q =>
      by_cases hl : d.length ≤ n
      · exact (no_run hq _ ht (.read hc hd hl) (by simp [foreign])).elim
      · exact (no_run hq _ ht (.readPart hc hd (by omega)) (by simp [foreign])).elim
  | sctpClose => exact no_run hq true ht .sctpClose rfl
  | ctxDone => exact no_run hq _ ht .ctxDone rfl
  | monSelect =>
    exact ⟨bool_not fun hx => no_run hq _ ht (.monCtx hx) rfl, fun s ha => no_sync hq ht ha (by simp) (.inr .state),
      fun s ha => no_sync hq ht ha (by simp) (.inr .err)⟩
  | waitEnter => exact no_run hq _ ht .waitEnter rfl
  | waitLeave => exact fun hx => no_run hq _ ht (.waitLeave hx) rfl
  | broadcast => exact no_run hq _ ht .broadcast rfl
  | ackSelect =>
    have hc : w.sh.ackClosed = false := bool_not fun hx => no_run hq _ ht (.ackClosed hx) rfl
    exact ⟨bool_not fun hx => no_run hq _ ht (.ackCtx hx) rfl, hc, fun ha => no_sync hq ht ha (by simp) (.inr (.ack hc))⟩
  | sleepSelect => exact bool_not fun hx => no_run hq _ ht (.sleepCtx hx) rfl
  | rand => exact no_run hq _ ht (.rand (b := List.replicate 128 0) (by simp)) rfl
  | getBeat => exact no_run hq _ ht .getBeat rfl
  | setBeat => exact no_run hq _ ht .setBeat rfl
  | estSelect =>
    have hc : w.sh.estClosed = false := bool_not fun hx => no_run hq _ ht (.estClosedRecv hx) rfl
    exact ⟨hc, fun ha => no_sync hq ht ha (by simp) (.inr (.est hc))⟩
  | intn n =>
    cases n with
    | zero => rfl
    | succ n => exact (no_run hq _ ht (.intn (r := 0) (by omega)) rfl).elim
  | spawn g => exact no_run hq _ ht .spawn rfl
  | crash => exact no_crash hq ht .crash
  | done r => exact no_run hq _ ht .done rfl
  | opened r => exact no_run hq _ ht .opened rfl

end

/-! ### The lock -/

namespace Lk

def ok (s : Bool) : Op → Prop
  | .state | .lock | .recvData | .sendErr _ | .sendState _ | .ackSelect | .estSelect | .waitLeave | .sleepSelect | .sendData _ | .sendAck
  | .read _ | .monSelect => s = false
  | .sendEst | .unlock => s = true
  | .intn n => s = false ∧ 0 < n
  | _ => True

def next (s : Bool) : (o : Op) → Bool
  | .lock => true
  | .unlock => false
  | _ => s

def D : Disc Bool where
  start _ s := s = false
  born _ := false
  ok _ s o := ok s o
  fin s := s = false
  may _ _ _ _ := True
  next _ s o _ := next s o

theorem D_ok {g s o} : D.ok g s o = ok s o := rfl
theorem D_may {g s o r} : D.may g s o r = True := rfl
theorem D_next {g s o r} : D.next g s o r = next s o := rfl
theorem D_post {s r} : D.post s r ↔ s = false := by cases r <;> simp [Disc.post, D]

theorem good (E : Env) : D.Good E where
  main := rfl
  init := rfl
  monitor := rfl
  api _ := rfl
  spawn g s g' h := rfl
  body g s hs := by
    obtain rfl := hs
    cases g with
    | monitorLoop =>
      obtain ⟨mode, cfg, hb, ms⟩ := E
      cases mode <;> wp_code [D_ok, D_may, D_next, ok, next, D_post] <;> (try simp)
    | packet raw =>
      rw [body, packet_eq]
      cases hp : M3UA.parse raw with
      | ok m => cases m <;> wp_code [D_ok, D_may, D_next, ok, next, D_post] <;> simp
      | _ => wp_code [D_post]
    | api c =>
      cases c <;> wp_code [D_ok, D_may, D_next, ok, next, D_post] <;> (try simp) <;> exact fun _ h => Nat.pos_of_ne_zero fun h0 => h (UInt16.toNat_inj.mp (by rw [h0]; rfl))
    | _ => wp_code [D_ok, D_may, D_next, ok, next, D_post] <;> simp_all

def one (s : Bool) : Nat := if s then 1 else 0

def I (sh : Shared) (ss : List Bool) : Prop := tot one ss = one sh.locked

theorem born_zero (l : List Gor) : tot one (l.map fun _ => false) = 0 := by
  induction l with
  | nil => rfl
  | cons a l ih => rw [List.map_cons, tot_cons, ih]; rfl

theorem pres : Pres D (fun sh _ ss => I sh ss) where
  env sh sh' tr ss h he := by cases he <;> exact h
  call sh tr ss c h _ := by
    show tot one (ss ++ [false]) = _
    rw [tot_append, h]; rfl
  run sh sh' tr ss i g s o r h hs hok hx := by
    refine ⟨trivial, ?_⟩
    have hok : ok s o := hok
    show tot one (ss.set i (next s o) ++ (spawned o).map fun _ => false) = _
    have h1 := tot_set one (next s o) hs
    have h2 := tot_ge one hs
    have h : tot one ss = one sh.locked := h
    have h3 : one sh.locked ≤ 1 := by unfold one; split <;> omega
    rw [tot_append, born_zero]
    cases hx
    all_goals first
      | (simp only [next] at *; omega)
      | (simp only [next, ok] at *; subst hok; simp_all [one]; done)
      | (simp only [next, ok] at *; subst hok; simp only [one] at *; simp at *; omega)
  sync sh sh' tr ss i j gi gj si sj oi oj ri rj h hij hsi hsj hoi hoj hx := by
    refine ⟨trivial, trivial, ?_⟩
    cases hx <;> (show I _ ((ss.set i si).set j sj)) <;> rw [set_self hsi, set_self hsj] <;> exact h
  crash sh tr ss i g s o h hs hok hx := h

theorem reach {E : Env} {w : World} (h : Reachable E w) : ∃ ss, D.Linked w ss ∧ I w.sh ss :=
  Disc.reach (good E) pres rfl h

end Lk

/-- Somebody who has the lock and can do nothing is the monitor, which wants to tell that the connection is established. -/
theorem locked {E : Env} {w : World} (h : Reachable E w) (hq : Halted E w) (hl : w.sh.locked = true) :
    ∃ hist k, w.threads[2]? = some ⟨.monitorLoop, hist, .op .sendEst k⟩ := by
  obtain ⟨ss, hlk, hi⟩ := Lk.reach h
  have hi : tot Lk.one ss = Lk.one w.sh.locked := hi
  rw [hl] at hi
  have : ∃ (i : Nat) (s : Bool), ss[i]? = some s ∧ s = true := by
    refine Classical.byContradiction fun hn => ?_
    have h0 : tot Lk.one ss = 0 := by
      refine Keep.tot_zero_of fun s hs => ?_
      obtain ⟨i, hi⟩ := List.getElem?_of_mem hs
      cases s with
      | false => rfl
      | true => exact (hn ⟨i, _, hi, rfl⟩).elim
    rw [h0] at hi; cases hi
  obtain ⟨i, s, hs, rfl⟩ := this
  obtain ⟨⟨g, e, p⟩, ht⟩ := getElem?_some_of_length hlk.1.symm hs
  have hw := hlk.2 i _ _ ht hs
  cases p with
  | ret r =>
    have := Lk.D_post.mp (wp_ret.mp hw)
    cases this
  | op o k =>
    have hok : Lk.ok true o := (wp_op.mp hw).1
    have hwt := waits hq ht
    have ho : o = .sendEst := by
      cases o <;> first | rfl | (cases hok; done) | (cases hwt; done) | (exact absurd hok.1 (by simp))
    subst ho
    have hr := Role.pending h ht
    have hg : g = .monitorLoop := by simpa [Role.role] using hr.2
    subst hg
    have : i = 2 := hr.1.2.2.mp rfl
    subst this
    exact ⟨e, k, ht⟩

/-! ### The permission to read

It is passed from `start` to the monitor, from the monitor to the goroutine that handles what was read, and back. A goroutine that ends without
passing it on keeps it. -/

namespace Pm

inductive P where
  | no | start
  | busy (raw : Bytes)
  | quit
  | idle | ready
  | took (raw : Bytes)

def one : P → Nat
  | .no | .idle => 0
  | _ => 1

/-- The ghost state belongs to the monitor. -/
def mon : P → Bool
  | .idle | .ready | .took _ => true
  | _ => false

def born : Gor → P
  | .start => .start
  | .packet raw => .busy raw
  | .monitor | .monitorLoop => .idle
  | _ => .no

def ok (g : Gor) (s : P) (o : Op) : Prop :=
  (match s with
    | .no => ∀ raw, g ≠ .packet raw
    | .start => g = .start
    | .busy raw => g = .packet raw
    | .quit => False
    | .idle => g = .monitor ∨ g = .monitorLoop
    | .ready | .took _ => g = .monitorLoop) ∧
  match o with
  | .sendState _ => s = .start ∨ ∃ raw, s = .busy raw
  | .read n => s = .ready ∧ n = 1500
  | .spawn (.packet raw) => s = .took raw
  | .spawn .start | .spawn .monitor | .spawn .monitorLoop => False
  | .monSelect => s = .idle
  | .sendAck => ∃ raw, s = .busy raw ∧ meaning raw = some .heartbeatAck
  | .sendEst => s = .ready
  | .intn _ => Role.cl g = .api
  | _ => True

def next (s : P) : (o : Op) → Resp o → P
  | .sendState _, _ => .no
  | .monSelect, .state _ => .ready
  | .read _, some raw => .took raw
  | .spawn (.packet _), _ => .idle
  | .ctxDone, true => match s with
    | .busy _ => .quit
    | s => s
  | _, _ => s

def fin : P → Prop
  | .start => False
  | .busy raw => Unusable raw
  | .took _ => False
  | _ => True

def D : Disc P where
  start g s := s = born g
  born := born
  ok := ok
  fin := fin
  may _ _ _ _ := True
  next _ := next

theorem D_ok {g s o} : D.ok g s o = ok g s o := rfl
theorem D_may {g s o r} : D.may g s o r = True := rfl
theorem D_next {g s o r} : D.next g s o r = next s o r := rfl
theorem D_post_none {s} : D.post s none = fin s := rfl
theorem D_post_some {s g} : D.post s (some g) = (s = born g) := rfl

theorem good (E : Env) : D.Good E where
  main := rfl
  init := rfl
  monitor := rfl
  api _ := rfl
  spawn g s g' h := rfl
  body g s hs := by
    obtain rfl := hs
    cases g with
    | monitorLoop =>
      obtain ⟨mode, cfg, hb, ms⟩ := E
      cases mode <;> wp_code [D_ok, D_may, D_next, ok, next, D_post_none, D_post_some, born, fin] <;> simp
    | packet raw =>
      rw [body, packet_eq]
      cases hp : M3UA.parse raw with
      | ok m =>
        have hv := (M3UA.parse_octets hp).1
        have hu : ¬ m.version = 1 → Unusable raw := by
          intro h m' hm
          rw [hp] at hm; cases hm
          rw [hv]; exact h
        cases m <;> wp_code [D_ok, D_may, D_next, ok, next, D_post_none, D_post_some, born, fin] <;>
          simp +contextual [hu, meaning, hp, hv, M3UA.kind, -List.getD_eq_getElem?_getD]
      | _ => wp_code [D_post_none, D_post_some, born, fin] <;> simp [Unusable, hp]
    | api c =>
      cases c <;> wp_code [D_ok, D_may, D_next, ok, next, D_post_none, D_post_some, born, fin] <;> (try simp [Role.cl])
    | _ => wp_code [D_ok, D_may, D_next, ok, next, D_post_none, D_post_some, born, fin] <;> simp_all

structure I (sh : Shared) (tr : List Rec) (ss : List P) : Prop where
  tot : tot one ss = 1
  quit : ∀ i : Nat, ss[i]? = some .quit → sh.ctxDone = true
  busy : ∀ (i : Nat) (raw : Bytes), ss[i]? = some (.busy raw) ∨ ss[i]? = some (.took raw) → (receives tr).getLast? = some raw
  mon : ∀ (i : Nat) (s : P), ss[i]? = some s → mon s = true → i = 2
  len : 3 ≤ ss.length

theorem receives_snoc (tr : List Rec) (x : Rec) (h : received? x.ev = none) : receives (tr ++ [x]) = receives tr := by
  simp [receives, h]

theorem Exec.ctx {sh sh' : Shared} {o : Op} {r : Resp o} (h : Exec sh o r sh') : sh'.ctxDone = sh.ctxDone := by cases h <;> rfl

theorem Exec.ctxAsk {sh sh' : Shared} {o : Op} {r : Resp o} (h : Exec sh o r sh') (ho : (⟨o, r⟩ : Ev) = ⟨.ctxDone, true⟩) :
    sh.ctxDone = true := by
  cases h <;> first | (cases ho; done) | (injection ho)

theorem Exec.ctxTrue {sh sh' : Shared} (h : Exec sh .ctxDone true sh') : sh.ctxDone = true := Exec.ctxAsk h rfl

/-- Only the owner of the permission changes. -/
theorem I.move {sh sh' : Shared} {tr tr' : List Rec} {ss : List P} (h : I sh tr ss) {i : Nat} {s : P} (hs : ss[i]? = some s) (s' : P)
    (gs : List P) (hc : sh.ctxDone = true → sh'.ctxDone = true) (hn : M3.Conn.tot one gs + one s' = one s) (hm : Pm.mon s' = Pm.mon s)
    (hq : s' = .quit → sh'.ctxDone = true) (hgs : ∀ g ∈ gs, g ≠ .quit ∧ Pm.mon g = false)
    (hr : ∀ raw, (s' = .busy raw ∨ s' = .took raw ∨ .busy raw ∈ gs) → (receives tr').getLast? = some raw)
    (ho : receives tr' = receives tr ∨ one s = 1) : I sh' tr' (ss.set i s' ++ gs) := by
  have ht := tot_set one s' hs
  have hb : ∀ (j : Nat) (raw : Bytes) (x : P), (x = .busy raw ∨ x = .took raw) → (ss.set i s' ++ gs)[j]? = some x →
      (receives tr').getLast? = some raw := by
    intro j raw x hx hj
    rcases mem_set_cases hs hj with ⟨-, h2⟩ | ⟨hne, h2⟩ | h2
    · subst h2
      exact hr raw (by rcases hx with rfl | rfl <;> simp)
    · rcases ho with ho | ho
      · rw [ho]; exact h.busy j raw (by rcases hx with rfl | rfl <;> simp [h2])
      · have h3 := tot_ge_two one hne h2 hs
        have h4 : one x = 1 := by rcases hx with rfl | rfl <;> rfl
        have := h.tot
        omega
    · rcases hx with rfl | rfl
      · exact hr raw (.inr (.inr h2))
      · have := (hgs _ h2).2; cases this
  refine ⟨by rw [tot_append]; have := h.tot; omega, fun j hj => ?_, fun j raw hj => ?_, fun j x hj hx => ?_, ?_⟩
  · rcases mem_set_cases hs hj with ⟨-, h2⟩ | ⟨-, h2⟩ | h2
    · exact hq h2.symm
    · exact hc (h.quit j h2)
    · exact ((hgs _ h2).1 rfl).elim
  · rcases hj with hj | hj
    · exact hb j raw _ (.inl rfl) hj
    · exact hb j raw _ (.inr rfl) hj
  · rcases mem_set_cases hs hj with ⟨rfl, h2⟩ | ⟨-, h2⟩ | h2
    · exact h.mon j s hs (by rw [← hm, ← h2]; exact hx)
    · exact h.mon j x h2 hx
    · rw [(hgs _ h2).2] at hx; cases hx
  · have := h.len; simp; omega

/-- Nobody changes. -/
theorem I.same {sh sh' : Shared} {tr tr' : List Rec} {ss : List P} (h : I sh tr ss) {i : Nat} {s : P} (hs : ss[i]? = some s) (gs : List P)
    (hc : sh.ctxDone = true → sh'.ctxDone = true) (hn : ∀ g ∈ gs, g = .no) (ho : receives tr' = receives tr) : I sh' tr' (ss.set i s ++ gs) := by
  have h0 : M3.Conn.tot one gs = 0 := Keep.tot_zero_of fun g hg => by rw [hn g hg]; rfl
  refine h.move hs s gs hc (by omega) rfl ?_ (fun g hg => by rw [hn g hg]; exact ⟨by simp, rfl⟩) ?_ (.inl ho)
  · rintro rfl; exact hc (h.quit i hs)
  · rintro raw (rfl | rfl | hg)
    · rw [ho]; exact h.busy i raw (.inl hs)
    · rw [ho]; exact h.busy i raw (.inr hs)
    · cases hn _ hg

theorem pres : Pres D I where
  env sh sh' tr ss h he := by
    refine ⟨h.tot, fun i hi => ?_, h.busy, h.mon, h.len⟩
    have := h.quit i hi
    cases he <;> first | exact this | rfl
  call sh tr ss c h _ := by
    have hb : ∀ (i : Nat) (x : P), (ss ++ [.no])[i]? = some x → x ≠ .no → ss[i]? = some x := by
      intro i x hi hx
      by_cases hl : i < ss.length
      · rwa [List.getElem?_append_left hl] at hi
      · rw [List.getElem?_append_right (by omega)] at hi
        exact (hx (List.mem_singleton.mp (List.mem_of_getElem? hi))).elim
    refine ⟨?_, fun i hi => h.quit i (hb i _ hi (by simp)), fun i raw hi => h.busy i raw ?_,
      fun i s hi hm => h.mon i s (hb i _ hi (by rintro rfl; cases hm)) hm, ?_⟩
    · show M3.Conn.tot one (ss ++ [.no]) = 1
      rw [tot_append, h.tot]; rfl
    · exact hi.imp (fun hi => hb i _ hi (by simp)) fun hi => hb i _ hi (by simp)
    · have := h.len; simp; omega
  run sh sh' tr ss i g s o r h hs hok hx := by
    refine ⟨trivial, ?_⟩
    have hok : ok g s o := hok
    show I sh' (tr ++ [⟨i, g, o, r⟩]) (ss.set i (next s o r) ++ (spawned o).map born)
    have hc := Exec.ctx hx
    cases o with
    | read n =>
      obtain rfl : s = .ready := hok.2.1
      cases r with
      | none => exact h.same hs _ (by rw [hc]; exact id) (by simp [spawned]) (receives_snoc _ _ rfl)
      | some raw =>
        refine h.move hs _ _ (by rw [hc]; exact id) rfl rfl (by simp [next]) (by simp [spawned]) ?_ (.inr rfl)
        rintro raw' (h1 | h1 | h1)
        · cases h1
        · cases h1; simp [receives, received?]
        · cases h1
    | spawn g' =>
      cases g' with
      | packet raw =>
        obtain rfl : s = .took raw := hok.2
        refine h.move hs _ _ (by rw [hc]; exact id) rfl rfl (by simp [next]) (by simp [spawned, born, Pm.mon]) ?_ (.inl (receives_snoc _ _ rfl))
        rintro raw' (h1 | h1 | h1)
        · cases h1
        · cases h1
        · rw [receives_snoc _ _ rfl]
          cases List.mem_singleton.mp h1
          exact h.busy i _ (.inr hs)
      | start => exact hok.2.elim
      | monitor => exact hok.2.elim
      | monitorLoop => exact hok.2.elim
      | _ => exact h.same hs _ (by rw [hc]; exact id) (by simp [spawned, born]) (receives_snoc _ _ rfl)
    | ctxDone =>
      cases r with
      | false => exact h.same hs _ (by rw [hc]; exact id) (by simp [spawned]) (receives_snoc _ _ rfl)
      | true =>
        have hd : sh.ctxDone = true := Exec.ctxTrue hx
        cases s with
        | busy raw =>
          exact h.move hs _ _ (by rw [hc]; exact id) rfl rfl (fun _ => by rw [hc]; exact hd) (by simp [spawned])
            (by rintro raw' (h1 | h1 | h1) <;> cases h1) (.inl (receives_snoc _ _ rfl))
        | _ => exact h.same hs _ (by rw [hc]; exact id) (by simp [spawned]) (receives_snoc _ _ rfl)
    | monSelect =>
      cases r with
      | state x => cases hx
      | _ => exact h.same hs _ (by rw [hc]; exact id) (by simp [spawned]) (receives_snoc _ _ rfl)
    | sendState x => cases hx
    | _ => exact h.same hs _ (by rw [hc]; exact id) (by simp [spawned]) (receives_snoc _ _ rfl)
  sync sh sh' tr ss i j gi gj si sj oi oj ri rj h hij hsi hsj hoi hoj hx := by
    refine ⟨trivial, trivial, ?_⟩
    have hoi : ok gi si oi := hoi
    have hoj : ok gj sj oj := hoj
    show I sh' _ ((ss.set i (next si oi ri)).set j (next sj oj rj))
    cases hx with
    | state =>
      obtain rfl : sj = .idle := hoj.2
      have h1 : one si = 1 := by rcases hoi.2 with rfl | ⟨raw, rfl⟩ <;> rfl
      have hj : (ss.set i .no)[j]? = some .idle := by rw [getElem?_set_ne' _ hij]; exact hsj
      have ht2 := tot_set one .ready hj
      have h0 : one .no = 0 := rfl
      have h0' : one .idle = 0 := rfl
      have h2 : one .ready = 1 := rfl
      have := h.tot
      have hz := tot_set one .no hsi
      have hothers : ∀ (k : Nat) (x : P), ((ss.set i .no).set j .ready)[k]? = some x → one x = 1 → k = j ∧ x = .ready := by
        intro k x hk hx
        rcases mem_set_cases (gs := []) hj (by simpa using hk) with ⟨h3, h4⟩ | ⟨hne, h3⟩ | h3
        · exact ⟨h3, h4⟩
        · rcases mem_set_cases (gs := []) hsi (by simpa using h3) with ⟨-, h4⟩ | ⟨hne', h4⟩ | h4
          · subst h4; cases hx
          · have h5 := tot_ge_two one hne' h4 hsi
            omega
          · cases h4
        · cases h3
      refine ⟨by simp only [next] at *; omega, fun k hk => ?_, fun k raw hk => ?_, fun k x hk hx => ?_, ?_⟩
      · cases (hothers k _ hk rfl).2
      · rcases hk with hk | hk <;> cases (hothers k _ hk rfl).2
      · have hk : ((ss.set i .no).set j .ready)[k]? = some x := hk
        rcases mem_set_cases (gs := []) hj (by simpa using hk) with ⟨h3, h4⟩ | ⟨hne, h3⟩ | h3
        · rw [h3]; exact h.mon j _ hsj rfl
        · rcases mem_set_cases (gs := []) hsi (by simpa using h3) with ⟨-, h4⟩ | ⟨hne', h4⟩ | h4
          · subst h4; cases hx
          · exact h.mon k x h4 hx
          · cases h4
        · cases h3
      · have := h.len; simpa using this
    | _ =>
      have hr : ∀ x y : Rec, received? x.ev = none → received? y.ev = none → receives (tr ++ [x, y]) = receives tr := by
        intro x y hx hy; simp [receives, hx, hy]
      show I _ _ ((ss.set i si).set j sj)
      rw [set_self hsi, set_self hsj]
      refine ⟨h.tot, h.quit, ?_, h.mon, h.len⟩
      rw [hr _ _ rfl rfl]
      exact h.busy
  crash sh tr ss i g s o h hs hok hx := ⟨h.tot, h.quit, h.busy, h.mon, h.len⟩

theorem reach {E : Env} {w : World} (h : Reachable E w) : ∃ ss, D.Linked w ss ∧ I w.sh w.trace ss := by
  refine Disc.reach (good E) pres ⟨rfl, fun i hi => ?_, fun i raw hi => ?_, fun i s hi hm => ?_, Nat.le_refl 3⟩ h
  all_goals
    rcases i with _ | _ | _ | i <;> simp [born, D] at hi <;> first | rfl | (subst hi; cases hm)

/-- Who has the permission. -/
theorem holder {E : Env} {w : World} (h : Reachable E w) : ∃ (ss : List P) (i : Nat) (t : Thread) (s : P),
    D.Linked w ss ∧ I w.sh w.trace ss ∧ w.threads[i]? = some t ∧ ss[i]? = some s ∧ one s = 1 ∧ ∀ (j : Nat) (s' : P), j ≠ i → ss[j]? = some s' → one s' = 0 := by
  obtain ⟨ss, hl, hi⟩ := reach h
  have : ∃ (i : Nat) (s : P), ss[i]? = some s ∧ one s = 1 := by
    refine Classical.byContradiction fun hn => ?_
    have h0 : M3.Conn.tot one ss = 0 := by
      refine Keep.tot_zero_of fun s hs => ?_
      obtain ⟨i, hi⟩ := List.getElem?_of_mem hs
      cases s <;> first | rfl | exact (hn ⟨i, _, hi, rfl⟩).elim
    have := hi.tot
    omega
  obtain ⟨i, s, hs, h1⟩ := this
  obtain ⟨t, ht⟩ := getElem?_some_of_length hl.1.symm hs
  refine ⟨ss, i, t, s, hl, hi, ht, hs, h1, fun j s' hne hj => ?_⟩
  have h2 := tot_ge_two one hne hj hs
  have := hi.tot
  cases s' <;> first | rfl | (simp only [one] at *; omega)

end Pm

/-- A halted connection whose monitor waits for a report: why there is none. -/
theorem deaf {E : Env} {w : World} (h : Reachable E w) (hq : Halted E w) {g : Gor} {e : List Ev}
    {k : Resp .monSelect → Prog (Option Gor)} (ht : w.threads[2]? = some ⟨g, e, .op .monSelect k⟩) :
    ∃ raw, (receives w.trace).getLast? = some raw ∧
      (Unusable raw ∨ (meaning raw = some .heartbeatAck ∧ w.at .sendAck ∧ ¬ w.at .ackSelect)) := by
  have hw := waits hq ht
  have hl : w.sh.locked = false := bool_not fun hl => by
    obtain ⟨e', k', h'⟩ := locked h hq hl
    rw [ht] at h'; cases h'
  obtain ⟨ss, i, ⟨g', e', p⟩, s, hlk, hi, hti, hs, h1, -⟩ := Pm.holder h
  have hwp := hlk.2 i _ _ hti hs
  have hat : w.at .monSelect := ⟨2, _, k, ht, rfl⟩
  cases p with
  | ret r =>
    cases r with
    | some g'' => exact (no_loop hq hti).elim
    | none =>
      have hf : Pm.fin s := Pm.D_post_none.mp (wp_ret.mp hwp)
      cases s with
      | no => cases h1
      | idle => cases h1
      | start => exact hf.elim
      | took raw => exact hf.elim
      | ready =>
        obtain rfl := hi.mon i _ hs rfl
        rw [ht] at hti; cases hti
      | busy raw => exact ⟨raw, hi.busy i raw (.inl hs), .inl hf⟩
      | quit => have := hi.quit i hs; rw [hw.1] at this; cases this
  | op o k' =>
    have hok : Pm.ok g' s o := (wp_op.mp hwp).1
    have hwt := waits hq hti
    have hr := (Role.pending h hti).2
    have hm : Pm.mon s = false := bool_not fun hm => by
      obtain rfl := hi.mon i _ hs hm
      rw [ht] at hti; cases hti
      have : s = .idle := hok.2
      subst this; cases h1
    have hg : (s = .start ∧ g' = .start) ∨ ∃ raw, s = .busy raw ∧ g' = .packet raw := by
      cases s with
      | start => exact .inl ⟨rfl, hok.1⟩
      | busy raw => exact .inr ⟨raw, rfl, hok.1⟩
      | quit => exact hok.1.elim
      | no => cases h1
      | _ => cases hm
    have ho : o = .sendAck := by
      rcases hg with ⟨rfl, rfl⟩ | ⟨raw, rfl, rfl⟩ <;> cases o <;>
        first
          | rfl
          | (cases hwt; done)
          | (cases hok.2; done)
          | (exact (hwt hat).elim)
          | (have : w.sh.locked = true := hwt; rw [hl] at this; cases this; done)
          | (simp [Role.role, Role.cl] at hr; done)
          | (exact (by cases hok.2.1; done))
    subst ho
    obtain ⟨raw, rfl, hmean⟩ := hok.2
    exact ⟨raw, hi.busy i raw (.inl hs), .inr ⟨hmean, ⟨i, _, k', hti, rfl⟩, hwt.2⟩⟩

/-! ### The code of the first goroutines -/

theorem loops (E : Env) (g : Gor) : WP (Hist fun _ _ => True) g (fun s r => (∀ g', r = some g' → Role.cl g' = Role.cl g) ∧
    (g = .monitor → r ≠ none) ∧ (g = .monitorLoop → r = none → ∃ e ∈ s, e.op = .sctpClose)) [] (body E g) := by
  cases g with
  | monitorLoop =>
    obtain ⟨mode, cfg, hb, ms⟩ := E
    cases mode <;> wp_code [Hist.ok_eq, Hist.may_eq, Hist.next_eq, List.nil_append, List.append_assoc, List.cons_append] <;> simp [Role.cl]
  | packet raw =>
    rw [body, packet_eq]
    cases hp : M3UA.parse raw with
    | ok m => cases m <;> wp_code [Hist.ok_eq, Hist.may_eq, Hist.next_eq] <;> simp
    | _ => wp_code [Hist.ok_eq, Hist.may_eq, Hist.next_eq] <;> simp
  | api c => cases c <;> wp_code [Hist.ok_eq, Hist.may_eq, Hist.next_eq] <;> simp
  | _ => wp_code [Hist.ok_eq, Hist.may_eq, Hist.next_eq] <;> simp [Role.cl]

theorem looped {E : Env} {w : World} (h : Reachable E w) {i : Nat} {g : Gor} {e : List Ev} {r : Option Gor}
    (ht : w.threads[i]? = some ⟨g, e, .ret r⟩) : (∀ g', r = some g' → Role.cl g' = Role.cl g) ∧
    (g = .monitor → r ≠ none) ∧ (g = .monitorLoop → r = none → ∃ x ∈ e, x.op = .sctpClose) := by
  obtain ⟨h1, pre, h2, -⟩ := (Follows.reach h).2 i _ ht
  have hr : Hist.Real e := by
    intro x hx
    refine Hist.real_of h i x (List.mem_map.mpr ⟨⟨i, g, x⟩, ?_, rfl⟩)
    rw [h2]
    exact List.mem_append_right _ (List.mem_map.mpr ⟨x, hx, rfl⟩)
  simpa using Hist.path (loops E g) hr h1

theorem class_of {E : Env} {w : World} (h : Reachable E w) {i : Nat} (hi : i < 3) {t : Thread} (ht : w.threads[i]? = some t) :
    some (Role.cl t.gor) = [Role.Cl.main, .start, .monitor][i]? := by
  rw [Reachable] at h
  generalize hw : init E = w₀ at h
  induction h generalizing t with
  | refl =>
    subst hw
    rcases i with _ | _ | _ | i
    · cases ht; rfl
    · cases ht; rfl
    · cases ht; rfl
    · omega
  | @tail a c hab hs ih =>
    have ha : Reachable E a := by rw [Reachable, hw]; exact hab
    have hlen : 3 ≤ a.threads.length := by
      obtain ⟨ss, hl, hI⟩ := Pm.reach ha
      rw [← hl.1]; exact hI.len
    have hlt : i < a.threads.length := by omega
    cases hs with
    | env _ he => exact ih ht
    | call => exact ih (by rwa [List.getElem?_append_left hlt] at ht)
    | loop j g g' e _ htj =>
      by_cases hji : j = i
      · subst hji
        simp only [List.getElem?_set_self hlt, Option.some.injEq] at ht
        subst ht
        rw [← ih htj]
        exact congrArg some ((looped ha htj).1 g' rfl)
      · exact ih (by simpa only [List.getElem?_set_ne hji] using ht)
    | crash => exact ih ht
    | run j g e o k r _ htj hx =>
      rw [List.getElem?_append_left (by simpa using hlt)] at ht
      by_cases hji : j = i
      · subst hji
        simp only [List.getElem?_set_self hlt, Option.some.injEq] at ht
        subst ht
        have := ih htj
        exact this
      · exact ih (by simpa only [List.getElem?_set_ne hji] using ht)
    | sync j l gj gl hj hl oj ol kj kl rj rl _ hjl htj htl hx =>
      by_cases hli : l = i
      · subst hli
        rw [List.getElem?_set_self (by simpa using hlt)] at ht
        cases ht
        have := ih htl
        exact this
      · rw [List.getElem?_set_ne hli] at ht
        by_cases hji : j = i
        · subst hji
          simp only [List.getElem?_set_self hlt, Option.some.injEq] at ht
          subst ht
          have := ih htj
          exact this
        · exact ih (by simpa only [List.getElem?_set_ne hji] using ht)

theorem third {E : Env} {w : World} (h : Reachable E w) : 3 ≤ w.threads.length := by
  obtain ⟨ss, hl, hI⟩ := Pm.reach h
  rw [← hl.1]; exact hI.len

/-- The monitor has ended only after closing the association. -/
theorem over {E : Env} {w : World} (h : Reachable E w) {g : Gor} {e : List Ev} (ht : w.threads[2]? = some ⟨g, e, .ret none⟩) :
    w.sh.sctpClosed = true := by
  have hc := class_of h (by omega) ht
  have hl := looped h ht
  have hg : g = .monitorLoop := by
    cases g <;> simp [Role.cl] at hc
    · exact (hl.2.1 rfl rfl).elim
    · rfl
  obtain ⟨x, hx, ho⟩ := hl.2.2 hg rfl
  obtain ⟨-, pre, h2, -⟩ := (Follows.reach h).2 2 _ ht
  refine shut_closed h ⟨⟨2, g, x⟩, ?_, ho⟩
  have : (⟨2, g, x⟩ : Rec) ∈ w.of 2 := by rw [h2]; exact List.mem_append_right _ (List.mem_map.mpr ⟨x, hx, rfl⟩)
  exact (List.mem_filter.mp this).1

/-- What the monitor of a halted connection waits for. -/
theorem monitor {E : Env} {w : World} (h : Reachable E w) (hq : Halted E w) {g : Gor} {e : List Ev} {o : Op}
    {k : Resp o → Prog (Option Gor)} (ht : w.threads[2]? = some ⟨g, e, .op o k⟩) : o = .read 1500 ∨ o = .monSelect ∨ o = .sendEst := by
  have hwt := waits hq ht
  have hr := (Role.pending h ht).2
  have hc : Role.cl g = .monitor := by simpa using class_of h (by omega) ht
  obtain ⟨ss, hl, hi⟩ := Pm.reach h
  obtain ⟨s, hs⟩ := getElem?_some_of_length hl.1 ht
  have hok : Pm.ok g s o := (wp_op.mp (hl.2 2 _ s ht hs)).1
  have hlock : w.sh.locked = true → o = .sendEst := fun hl => by
    obtain ⟨e', k', h'⟩ := locked h hq hl
    rw [ht] at h'; cases h'; rfl
  have hg : g = .monitor ∨ g = .monitorLoop := by cases g <;> simp [Role.cl] at hc ⊢
  clear hc
  rcases hg with rfl | rfl <;> cases o <;> first
    | (cases hwt; done)
    | (simp; done)
    | (exact .inr (.inr (hlock hwt)))
    | (obtain rfl := hok.2.2; simp; done)
    | (cases hok.2; done)
    | (simp [Role.role, Role.cl] at hr; done)

/-- `Dial` or `Accept` of a halted connection has returned, unless it waits. -/
theorem main {E : Env} {w : World} (h : Reachable E w) (hq : Halted E w) (ha : ¬ w.at .estSelect) :
    ∃ e, w.threads[0]? = some ⟨.main, e, .ret none⟩ := by
  have h3 := third h
  obtain ⟨⟨g, e, p⟩, ht⟩ : ∃ t, w.threads[0]? = some t := ⟨_, List.getElem?_eq_getElem (by omega)⟩
  have hg : g = .main := by
    have := class_of h (by omega) ht
    cases g <;> simp [Role.cl] at this
    rfl
  subst hg
  cases p with
  | ret r =>
    cases r with
    | none => exact ⟨e, ht⟩
    | some g' => exact (no_loop hq ht).elim
  | op o k =>
    exfalso
    have hwt := waits hq ht
    obtain ⟨hp, -⟩ := Follows.once h ht rfl rfl
    have hp : Path (.op .estSelect _) e (.op o k) := hp
    rcases Path.op_iff.mp hp with ⟨-, h1⟩ | ⟨r, e', -, h1⟩
    · cases h1; exact ha ⟨0, _, _, ht, rfl⟩
    · have hdone : ∀ {o' : Op} {k' : Resp o' → Prog (Option Gor)}, (Prog.op o' k') = .op o k → ¬ Waits w o' → False := by
        intro o' k' he hn
        cases he; exact hn hwt
      cases r with
      | ok =>
        have h1 : Path (.op (.opened .conn) fun _ => .ret none) e' _ := h1
        rcases Path.op_iff.mp h1 with ⟨-, h2⟩ | ⟨r, e'', -, h2⟩
        · cases h2; cases hwt
        · cases h2
      | closed =>
        have h1 : Path (.op .sctpClose fun _ => .op (.opened .failedToEstablish) fun _ => .ret none) e' _ := h1
        rcases Path.op_iff.mp h1 with ⟨-, h2⟩ | ⟨r, e'', -, h2⟩
        · cases h2; cases hwt
        · rcases Path.op_iff.mp h2 with ⟨-, h3⟩ | ⟨r, e'', -, h3⟩
          · cases h3; cases hwt
          · cases h3
      | timeout =>
        have h1 : Path (.op .sctpClose fun _ => .op (.opened .timeout) fun _ => .ret none) e' _ := h1
        rcases Path.op_iff.mp h1 with ⟨-, h2⟩ | ⟨r, e'', -, h2⟩
        · cases h2; cases hwt
        · rcases Path.op_iff.mp h2 with ⟨-, h3⟩ | ⟨r, e'', -, h3⟩
          · cases h3; cases hwt
          · cases h3

/-- The channel is closed for ever. -/
theorem est_closed {E : Env} {w : World} (h : Reachable E w) {x : Rec} (hx : x ∈ w.trace) (he : x.ev = ⟨.estSelect, EstEv.closed⟩) :
    w.sh.estClosed = true := by
  induction h with
  | refl => cases hx
  | @tail a c _ hst ih =>
    have old : ∀ {l : List Rec}, x ∈ a.trace ++ l → (∀ y ∈ l, y.ev ≠ ⟨.estSelect, EstEv.closed⟩) → a.sh.estClosed = true := by
      intro l hx hn
      rcases List.mem_append.mp hx with hx | hx
      · exact ih hx
      · exact (hn x hx he).elim
    cases hst with
    | env _ he' => cases he' <;> exact ih hx
    | call c => exact ih hx
    | loop => exact ih hx
    | crash => exact ih hx
    | run i g hist o k r _ ht hex =>
      clear ht
      cases hex with
      | estClosedRecv hc => exact hc
      | closeEst => rfl
      | _ => exact old hx (fun y hy => by cases List.mem_singleton.mp hy; simp)
    | sync i j gi gj hi hj oi oj ki kj ri rj _ hij hti htj hex =>
      clear hti htj
      cases hex <;> exact old hx (fun y hy => by
        rcases List.mem_cons.mp hy with rfl | hy
        · simp
        · cases List.mem_singleton.mp hy; simp)

/-! ### How to see that a connection does nothing any more -/

def isAt (w : World) (p : Op → Bool) : Bool := w.threads.any fun t => match t.prog with
  | .op o _ => p o
  | .ret _ => false

def waitsB (w : World) : Op → Bool
  | .state | .lock => w.sh.locked
  | .sendData _ => !w.sh.dataClosed && !w.sh.ctxDone && decide (dataCap ≤ w.sh.dataQ.length)
  | .recvData => w.sh.dataQ.isEmpty && !w.sh.dataClosed
  | .read _ => w.sh.inbox.isEmpty && !w.sh.sctpClosed
  | .monSelect => !w.sh.ctxDone && !isAt w fun o => match o with | .sendState _ | .sendErr _ => true | _ => false
  | .sendState _ | .sendErr _ => !isAt w fun o => match o with | .monSelect => true | _ => false
  | .waitLeave => match w.sh.cond with | .woken => false | _ => true
  | .ackSelect => !w.sh.ctxDone && !w.sh.ackClosed && !isAt w fun o => match o with | .sendAck => true | _ => false
  | .sendAck => !w.sh.ackClosed && !isAt w fun o => match o with | .ackSelect => true | _ => false
  | .sleepSelect => !w.sh.ctxDone
  | .estSelect => !w.sh.estClosed && !isAt w fun o => match o with | .sendEst => true | _ => false
  | .sendEst => !w.sh.estClosed && !isAt w fun o => match o with | .estSelect => true | _ => false
  | _ => false

def haltedB (w : World) : Bool := !w.sh.crashed && w.threads.all fun t => match t.prog with
  | .op o _ => waitsB w o
  | .ret r => r.isNone

theorem isAt_of {w : World} {o : Op} (h : w.at o) {p : Op → Bool} (hp : p o = true) : isAt w p = true := by
  obtain ⟨i, ⟨g, e, q⟩, k, ht, rfl⟩ := h
  exact List.any_eq_true.mpr ⟨_, List.mem_of_getElem? ht, hp⟩

theorem waitsB_run {w : World} {sh sh' : Shared} (hs : w.sh = sh) {o : Op} {r : Resp o} (hx : Exec sh o r sh') (hf : foreign sh ⟨o, r⟩ = false)
    (hb : waitsB w o = true) : False := by
  cases hx <;> first
    | (cases hb; done)
    | (cases hf; done)
    | (simp only [waitsB, Bool.and_eq_true, Bool.not_eq_true', hs] at hb
       first
        | (simp [*] at hb; done)
        | (simp [foreign, hb.2] at hf; done)
        | (rename_i h1 h2; have := of_decide_eq_true hb.2; omega))

theorem waitsB_crash {w : World} {sh : Shared} (hs : w.sh = sh) {o : Op} (hx : Crashes sh o) (hb : waitsB w o = true) : False := by
  cases hx <;> first
    | (cases hb; done)
    | (simp only [waitsB, Bool.and_eq_true, Bool.not_eq_true', hs] at hb; simp [*] at hb; done)

theorem halted_of {E : Env} {w : World} (h : haltedB w = true) : Halted E w := by
  simp only [haltedB, Bool.and_eq_true, Bool.not_eq_true', List.all_eq_true] at h
  obtain ⟨hc, h⟩ := h
  have hop : ∀ {i : Nat} {g : Gor} {e : List Ev} {o : Op} {k : Resp o → Prog (Option Gor)},
      w.threads[i]? = some ⟨g, e, .op o k⟩ → waitsB w o = true := fun ht => h _ (List.mem_of_getElem? ht)
  have hat : ∀ {i : Nat} {g : Gor} {e : List Ev} {o : Op} {k : Resp o → Prog (Option Gor)},
      w.threads[i]? = some ⟨g, e, .op o k⟩ → w.at o := fun ht => ⟨_, _, _, ht, rfl⟩
  refine ⟨hc, fun w' ho => ?_⟩
  obtain ⟨sh, ts, tr⟩ := w
  cases ho with
  | run i g e o k r _ ht hx hf =>
    exact waitsB_run rfl hx hf (hop ht)
  | sync i j gi gj hi hj oi oj ki kj ri rj _ hij hti htj hx =>
    have h1 := hop hti
    have h2 := hat htj
    clear hti htj
    simp only at hx
    cases hx <;> simp only [waitsB, Bool.and_eq_true, Bool.not_eq_true'] at h1 <;>
      first
        | (rw [isAt_of h2 rfl] at h1; cases h1; done)
        | (have := h1.2; rw [isAt_of h2 rfl] at this; cases this; done)
  | loop i g g' e _ ht => cases h _ (List.mem_of_getElem? ht)
  | crash i g e o k _ ht hx =>
    exact waitsB_crash rfl hx (hop ht)

end M3.Conn.Halt
