import Verif.Lemmas.Conn.Code
import Verif.Lemmas.KernelRfl

/- Concrete schedules: an executable version of `Step`, used to exhibit executions. -/

set_option autoImplicit false

namespace M3.Conn

/-- How an operation that has several outcomes is to end. -/
inductive Hint where
  /-- the regular outcome; SCTP writes report `n` bytes -/
  | std (n : Nat)
  /-- SCTP or random number failure, or the `ctx.Done()` branch of a `select` -/
  | fail
  /-- a timer expires / a closed channel is noticed -/
  | timer
  | closed
  | rand (b : Bytes)

/-- One step of a schedule. -/
inductive Choice where
  | deliver (d : Bytes)
  | cancel
  | otherBeat (b : Bytes)
  | call (c : Api)
  | run (i : Nat) (h : Hint)
  | sync (i j : Nat)
  | loop (i : Nat)
  | crash (i : Nat)

/-- Executable `Exec`. -/
def execOp (sh : Shared) : (o : Op) → Hint → Option (Resp o × Shared)
  | .state, _ => if sh.locked = false then some (sh.st, sh) else none
  | .lock, _ => if sh.locked = false then some ((), { sh with locked := true }) else none
  | .unlock, _ => some ((), { sh with locked := false })
  | .getSt, _ => some (sh.st, sh)
  | .putSt s, _ => some ((), { sh with st := s })
  | .sendData pd, .std _ =>
    if sh.dataClosed = false ∧ sh.dataQ.length < dataCap then some ((), { sh with dataQ := sh.dataQ ++ [pd] })
    else none
  | .recvData, _ =>
    match sh.dataQ with
    | pd :: q => some (some pd, { sh with dataQ := q })
    | [] => if sh.dataClosed = true then some (none, sh) else none
  | .closeEst, _ => if sh.estClosed = false then some ((), { sh with estClosed := true }) else none
  | .closeAck, _ => if sh.ackClosed = false then some ((), { sh with ackClosed := true }) else none
  | .closeData, _ => if sh.dataClosed = false then some ((), { sh with dataClosed := true }) else none
  | .info, _ => some (sh.info, sh)
  | .write _ _, .std n => if sh.sctpClosed = false then some (some n, sh) else none
  | .write _ _, _ => some (none, sh)
  | .read n, .std _ =>
    match sh.inbox with
    | d :: q =>
      if sh.sctpClosed = false then
        if d.length ≤ n then some (some d, { sh with inbox := q })
        else some (some (d.take n), { sh with inbox := d.drop n :: q })
      else none
    | [] => none
  | .read _, _ => some (none, sh)
  | .sctpClose, .fail => some (false, { sh with sctpClosed := true })
  | .sctpClose, _ => some (true, { sh with sctpClosed := true })
  | .ctxDone, _ => some (sh.ctxDone, sh)
  | .monSelect, _ => if sh.ctxDone = true then some (.ctx, sh) else none
  | .waitEnter, _ => some ((), { sh with cond := .waiting })
  | .waitLeave, _ => if sh.cond = .woken then some ((), { sh with cond := .idle }) else none
  | .broadcast, _ => some ((), { sh with cond := match sh.cond with | .waiting => .woken | c => c })
  | .ackSelect, .timer => some (.timer, sh)
  | .ackSelect, .closed => if sh.ackClosed = true then some (.closed, sh) else none
  | .sleepSelect, _ => some (false, sh)
  | .rand, .rand b => if b.length = 128 then some (some b, { sh with beatBuf := b }) else none
  | .rand, .fail => some (none, sh)
  | .getBeat, _ => some (match sh.beatRef with | .own b => b | .buf => sh.beatBuf, sh)
  | .setBeat, _ => some ((), { sh with beatRef := .buf })
  | .estSelect, .timer => some (.timeout, sh)
  | .estSelect, .closed => if sh.estClosed = true then some (.closed, sh) else none
  | .intn n, .std r => if r < n then some (r, sh) else none
  | .spawn _, _ => some ((), sh)
  | .done _, _ => some ((), sh)
  | .opened _, _ => some ((), sh)
  | _, _ => none

theorem execOp_sound {sh : Shared} {o : Op} {h : Hint} {x : Resp o × Shared} (hx : execOp sh o h = some x) :
    Exec sh o x.1 x.2 := by
  cases o <;> cases h <;> simp only [execOp, reduceCtorEq] at hx <;>
    first
    | (simp only [Option.some.injEq] at hx; subst hx; first | exact .broadcast | exact .getBeat | constructor; done)
    | (split at hx
       · split at hx
         · split at hx
           · cases hx; exact .read ‹_› ‹_› ‹_›
           · cases hx; exact .readPart ‹_› ‹_› (Nat.lt_of_not_le ‹_›)
         · cases hx
       · cases hx)
    | ((try split at hx) <;> (try split at hx) <;>
        first
        | (cases hx; done)
        | (simp only [Option.some.injEq] at hx; subst hx; constructor <;> first | assumption | simp_all))

/-- Executable `Sync`. -/
def syncOp (sh : Shared) : (o₁ o₂ : Op) → Option (Resp o₁ × Resp o₂ × Shared)
  | .sendState s, .monSelect => some ((), .state s, sh)
  | .sendErr e, .monSelect => some ((), .err e, sh)
  | .sendEst, .estSelect => if sh.estClosed = false then some ((), .ok, { sh with handed := true }) else none
  | .sendAck, .ackSelect => if sh.ackClosed = false then some ((), .ack, sh) else none
  | _, _ => none

theorem syncOp_sound {sh : Shared} {o₁ o₂ : Op} {x : Resp o₁ × Resp o₂ × Shared} (hx : syncOp sh o₁ o₂ = some x) :
    Sync sh o₁ x.1 o₂ x.2.1 x.2.2 := by
  cases o₁ <;> cases o₂ <;> simp only [syncOp, reduceCtorEq] at hx <;> (try split at hx) <;>
    first
    | cases hx; done
    | (simp only [Option.some.injEq] at hx; subst hx; constructor; assumption)
    | (simp only [Option.some.injEq] at hx; subst hx; constructor)

/-- Executable `Crashes`. -/
def crashOp (sh : Shared) : Op → Bool
  | .crash => true
  | .sendEst | .closeEst => sh.estClosed
  | .sendAck | .closeAck => sh.ackClosed
  | .sendData _ | .closeData => sh.dataClosed
  | _ => false

theorem crashOp_sound {sh : Shared} {o : Op} (h : crashOp sh o = true) : Crashes sh o := by
  cases o <;> simp only [crashOp, Bool.false_eq_true] at h <;> constructor <;> assumption

/-- Executable `Step`; `B` is the code of the goroutines. -/
def step (B : Gor → Prog (Option Gor)) (w : World) : Choice → Option World
  | .deliver d => if w.sh.crashed then none else some { w with sh := { w.sh with inbox := w.sh.inbox ++ [d] } }
  | .cancel => if w.sh.crashed then none else some { w with sh := { w.sh with ctxDone := true } }
  | .otherBeat b => if w.sh.crashed then none else some { w with sh := { w.sh with beatRef := .own b } }
  | .call c =>
    if w.sh.crashed then none else if w.sh.handed then
      some { w with threads := w.threads ++ [⟨.api c, [], B (.api c)⟩] }
    else none
  | .run i h =>
    if w.sh.crashed then none else
    match w.threads[i]? with
    | some ⟨g, hist, .op o k⟩ =>
      match execOp w.sh o h with
      | some (r, sh') => some ⟨sh', w.threads.set i ⟨g, hist ++ [⟨o, r⟩], k r⟩ ++ (spawned o).map fun g => ⟨g, [], B g⟩,
          w.trace ++ [⟨i, g, o, r⟩]⟩
      | none => none
    | _ => none
  | .sync i j =>
    if w.sh.crashed then none else if i = j then none else
    match w.threads[i]?, w.threads[j]? with
    | some ⟨gi, hi, .op oi ki⟩, some ⟨gj, hj, .op oj kj⟩ =>
      match syncOp w.sh oi oj with
      | some (ri, rj, sh') => some ⟨sh', (w.threads.set i ⟨gi, hi ++ [⟨oi, ri⟩], ki ri⟩).set j
          ⟨gj, hj ++ [⟨oj, rj⟩], kj rj⟩, w.trace ++ [⟨i, gi, oi, ri⟩, ⟨j, gj, oj, rj⟩]⟩
      | none => none
    | _, _ => none
  | .loop i =>
    if w.sh.crashed then none else
    match w.threads[i]? with
    | some ⟨_, _, .ret (some g')⟩ => some { w with threads := w.threads.set i ⟨g', [], B g'⟩ }
    | _ => none
  | .crash i =>
    if w.sh.crashed then none else
    match w.threads[i]? with
    | some ⟨_, _, .op o _⟩ => if crashOp w.sh o then some { w with sh := { w.sh with crashed := true } } else none
    | _ => none

theorem step_sound {E : Env} {w w' : World} {c : Choice} (h : step (body E) w c = some w') : Step E w w' := by
  have hc : w.sh.crashed = false := by
    cases hcr : w.sh.crashed with
    | false => rfl
    | true => cases c <;> simp [step, hcr] at h
  cases c with
  | deliver d => rw [step, if_neg (by simp [hc])] at h; cases h; exact .env hc (.deliver d)
  | cancel => rw [step, if_neg (by simp [hc])] at h; cases h; exact .env hc .cancel
  | otherBeat b => rw [step, if_neg (by simp [hc])] at h; cases h; exact .env hc (.otherBeat b)
  | call c =>
    simp only [step, hc, Bool.false_eq_true, if_false] at h
    split at h
    · cases h; exact .call c hc (by assumption)
    · cases h
  | run i hint =>
    simp only [step, hc, Bool.false_eq_true, if_false] at h
    split at h
    · rename_i g hist o k ht
      split at h
      · rename_i r sh' hx; cases h
        exact .run i g hist o k r hc ht (execOp_sound hx)
      · cases h
    · cases h
  | sync i j =>
    simp only [step, hc, Bool.false_eq_true, if_false] at h
    split at h
    · cases h
    · rename_i hij
      split at h
      · rename_i gi hi oi ki gj hj oj kj hti htj
        split at h
        · rename_i ri rj sh' hx; cases h
          exact .sync i j gi gj hi hj oi oj ki kj ri rj hc hij hti htj (syncOp_sound hx)
        · cases h
      · cases h
  | loop i =>
    simp only [step, hc, Bool.false_eq_true, if_false] at h
    split at h
    · rename_i g hist g' ht; cases h; exact .loop i g g' hist hc ht
    · cases h
  | crash i =>
    simp only [step, hc, Bool.false_eq_true, if_false] at h
    split at h
    · rename_i g hist o k ht
      split at h
      · rename_i hx; cases h; exact .crash i g hist o k hc ht (crashOp_sound hx)
      · cases h
    · cases h

/-- Follow a schedule. -/
def play (B : Gor → Prog (Option Gor)) (w : World) : List Choice → Option World
  | [] => some w
  | c :: cs => (step B w c).bind fun w' => play B w' cs

theorem play_steps {E : Env} {w w' : World} {cs : List Choice} (h : play (body E) w cs = some w') : Steps E w w' := by
  suffices ∀ w₀, Steps E w₀ w → Steps E w₀ w' from this w (.refl w)
  induction cs generalizing w with
  | nil => cases h; exact fun _ h => h
  | cons c cs ih =>
    intro w₀ h₀
    simp only [play] at h
    cases hs : step (body E) w c with
    | none => rw [hs] at h; cases h
    | some v => rw [hs] at h; exact ih h w₀ (.tail h₀ (step_sound hs))

theorem play_reachable {E : Env} {w : World} {cs : List Choice} (h : play (body E) (init E) cs = some w) : Reachable E w :=
  play_steps h

/-! ### Code that can be executed with an unknown configuration -/

/-- `writeOnly`, see `writeOnly_eq`. -/
def writeOnly' (m : M3UA) : Prog (Option CErr) :=
  .op .info fun i => .op (.write m.wire (sigInfo m i)) fun r =>
    match r with
    | none => .ret (some .sctp)
    | some _ => .ret none

/-- `handleErrors`, see `handleErrors_eq`. -/
def handleErrors' (E : Env) (e : CErr) : Prog (Option CErr) :=
  match reply E e with
  | none => .ret (some e)
  | some m => writeOnly' m

/-- `handleStateUpdate`. -/
def handleStateUpdate' (E : Env) (current : St) : Prog (Option CErr) := do
  act .lock
  let previous ← act .getSt
  act (.putSt current)
  let e ← (match E.mode with
    | .client => (match current with
      | .down => writeOnly' (.aspUp (Msg.AspUp.new E.cfg.aspIdentifier none))
      | .inactive => writeOnly' (.aspActive (Msg.AspActive.new E.cfg.trafficModeType E.cfg.routingContexts none))
      | .active => notifyEstablished current previous
      | _ => return some .sctpNotAlive)
    | .server => handleStateUpdateAsServer current previous : Prog (Option CErr))
  act .unlock
  return e

theorem handleStateUpdate_eq (E : Env) (s : St) : handleStateUpdate E s = handleStateUpdate' E s := by
  obtain ⟨mode, cfg, hb, ms⟩ := E
  cases mode <;> cases s <;>
    simp only [handleStateUpdate, handleStateUpdate', handleStateUpdateAsClient, initiateASPSM, initiateASPTM,
      writeOnly_eq] <;> rfl

/-- `monitorLoop`. -/
def monitorLoop' (E : Env) : Prog (Option Gor) := do
  match ← act .monSelect with
  | .ctx => monitorExit
  | .err err =>
    match ← handleErrors' E err with
    | some _ => monitorExit
    | none => return some .monitorLoop
  | .state s =>
    match ← handleStateUpdate' E s with
    | some .sctpNotAlive => monitorExit
    | _ =>
      match ← act (.read 1500) with
      | none => monitorExit
      | some raw =>
        act (.spawn (.packet raw))
        return some .monitorLoop

theorem monitorLoop_eq (E : Env) : monitorLoop E = monitorLoop' E := by
  unfold monitorLoop monitorLoop'
  congr 1; funext ev
  cases ev with
  | ctx => rfl
  | err e =>
    simp only [handleErrors_eq]
    cases e <;> simp only [handleErrors', reply, writeOnly_eq] <;> rfl
  | state s => simp only [handleStateUpdate_eq]; rfl

/-- `body` with executable code for the monitor. -/
def body' (E : Env) : Gor → Prog (Option Gor)
  | .monitorLoop => monitorLoop' E
  | g => body E g

theorem body_eq (E : Env) : body E = body' E := by
  funext g
  cases g <;> first | rfl | exact monitorLoop_eq E

theorem play_reachable' {E : Env} {w : World} {cs : List Choice} (h : play (body' E) (init E) cs = some w) :
    Reachable E w := by
  rw [← body_eq] at h
  exact play_reachable h

/-- Goroutine `i` completes `n` operations in the regular way. -/
def go (i n : Nat) : List Choice := List.replicate n (.run i (.std 0))

/-- A schedule shows that a state with a given view is reachable. -/
theorem reach_of {α : Type} {E : Env} {cs : List Choice} {f : World → α} {v : α}
    (h : (play (body' E) (init E) cs).map f = some v) : ∃ w, Reachable E w ∧ f w = v := by
  cases hp : play (body' E) (init E) cs with
  | none => rw [hp] at h; cases h
  | some w => rw [hp] at h; exact ⟨w, play_reachable' hp, Option.some.inj h⟩

/-- A schedule in two parts. -/
theorem reach_then {α : Type} {E : Env} {cs ds : List Choice} {f : World → World → α} {v : α}
    (h : ((play (body' E) (init E) cs).bind fun w => (play (body' E) w ds).map (f w)) = some v) :
    ∃ w w', Reachable E w ∧ Steps E w w' ∧ f w w' = v := by
  cases hp : play (body' E) (init E) cs with
  | none => rw [hp] at h; cases h
  | some w =>
    rw [hp, Option.bind_some] at h
    cases hq : play (body' E) w ds with
    | none => rw [hq] at h; cases h
    | some w' =>
      rw [hq] at h
      exact ⟨w, w', play_reachable' hp, play_steps (body_eq E ▸ hq), Option.some.inj h⟩

/-- A schedule with a step of interest. -/
theorem reach_step {α : Type} {E : Env} {cs ds : List Choice} {c : Choice} {f : World → World → World → α} {v : α}
    (h : ((play (body' E) (init E) cs).bind fun w => (step (body' E) w c).bind fun w' => (play (body' E) w' ds).map (f w w')) = some v) :
    ∃ w w' w'', Reachable E w ∧ Step E w w' ∧ Steps E w' w'' ∧ f w w' w'' = v := by
  cases hp : play (body' E) (init E) cs with
  | none => rw [hp] at h; cases h
  | some w =>
    rw [hp, Option.bind_some] at h
    cases hq : step (body' E) w c with
    | none => rw [hq] at h; cases h
    | some w' =>
      rw [hq, Option.bind_some] at h
      cases hr : play (body' E) w' ds with
      | none => rw [hr] at h; cases h
      | some w'' =>
        rw [hr] at h
        exact ⟨w, w', w'', play_reachable' hp, step_sound (body_eq E ▸ hq), play_steps (body_eq E ▸ hr), Option.some.inj h⟩

/-- What a program that has come to its end returned. -/
def Prog.result? {α : Type} : Prog α → Option α
  | .ret a => some a
  | .op .. => none

/-- From the start to the first read: the heartbeat goroutine (3) is started, the state is set to `AspDown`
(a client sends ASP Up). -/
def boot (m : Mode) : List Choice :=
  go 2 1 ++ [.loop 2, .sync 1 2] ++ match m with
    | .client => go 2 6
    | .server => go 2 4

/-- ASP Active Ack without parameters. -/
def ackMsg : Bytes := [1, 0, 4, 3, 0, 0, 0, 8]

/-- The peer sends nothing but ASP Active Ack; goroutine 4 handles it; the connection is established and
goroutine 2 is about to read. -/
def opening (m : Mode) : List Choice :=
  boot m ++ [.deliver ackMsg] ++ go 2 2 ++ [.loop 2] ++ go 4 2 ++ [.sync 4 2] ++ go 2 2 ++ [.loop 2, .sync 4 2]
    ++ go 2 3 ++ [.sync 2 0] ++ go 2 2 ++ go 0 1

theorem opening_ok (E : Env) : ∃ w, Reachable E w ∧ w.sh.st = .active ∧ w.sh.handed = true := by
  have h : (play (body' E) (init E) (opening E.mode)).map (fun w => (w.sh.st, w.sh.handed)) =
      some (.active, true) := by
    obtain ⟨mode, cfg, hb, ms⟩ := E
    cases mode <;> kernel_rfl
  obtain ⟨w, hw, he⟩ := reach_of h
  exact ⟨w, hw, by simp_all⟩

/-- A client without heartbeats that uses up to four streams, for examples. -/
def E₀ : Env := ⟨.client, Config.new 1 2 3 4 5 6, ⟨false, 0, 0, []⟩, 4⟩

/-- The same client with heartbeats. -/
def E₁ : Env := { E₀ with hb := ⟨true, 1, 2, []⟩ }

/-- Goroutine 3 is waiting for the connection to become active before it does so. -/
def openingBeat : List Choice :=
  go 2 1 ++ go 3 1 ++ (opening .client).drop 1

/-- As `openingBeat`, for either mode. -/
def openingBeatOf (m : Mode) : List Choice := go 2 1 ++ go 3 1 ++ (opening m).drop 1

/-- Then it sends a heartbeat with the given data. -/
def beat (d : Bytes) : List Choice := [.loop 3, .run 3 (.rand d)] ++ go 3 3

end M3.Conn
