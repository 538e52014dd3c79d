import Verif.Lemmas.Conn.Est
import Verif.Lemmas.Conn.Idle
import Verif.Lemmas.Conn.Lock
import Verif.Props.Conn.Causes
import Verif.Props.Conn.Delivery
import Verif.Props.Conn.Flow

/- What makes the process panic: C55, C56. -/

set_option autoImplicit false
set_option linter.unusedSimpArgs false

namespace M3.Spec

open M3.Conn

/-- A received datagram is a message of kind `k` without the parameter `n`. -/
def Lacks (k : Kind) (n : PName) (raw : List UInt8) : Prop :=
  meaning raw = some k ∧ ∃ qs, ParamSeq (raw.drop 8) qs ∧ ∀ q ∈ qs, q.1 ≠ n.tag

/-- Messages with a nil dereference in store: DATA without Protocol Data, Heartbeat Ack without Heartbeat Data. -/
def Poison (raw : List UInt8) : Prop := Lacks .data .protocolData raw ∨ Lacks .heartbeatAck .heartbeatData raw

/-- Calls that choose a stream at random. -/
def choosesStream : Api → Bool
  | .write _ | .writePD _ => true
  | _ => false

/-- The methods the user has called. -/
def calls (w : World) : List Api := w.threads.filterMap fun t =>
  match t.gor with
  | .api c => some c
  | _ => none

/-- Nothing received is being handled: the handlers of datagrams have finished, the monitor waits for a datagram or for a report
or has finished. Calls of the user and heartbeats may be under way. -/
def AtRest (w : World) : Prop := ∀ t ∈ w.threads,
  match t.gor with
  | .packet _ | .data _ | .start => t.prog = .ret none
  | .monitorLoop => t.prog = .ret none ∨ (∃ n k, t.prog = .op (.read n) k) ∨ ∃ k, t.prog = .op .monSelect k
  | _ => True

end M3.Spec

namespace M3.Conn

open Spec

theorem meaning_parse {raw : Bytes} {k : Kind} (h : meaning raw = some k) : ∃ m, M3UA.parse raw = .ok m ∧ m.kind = some k := by
  unfold meaning at h
  split at h
  · split at h
    · exact ⟨_, by assumption, h⟩
    · cases h
  · cases h

/-! ### C56: crashes by messages -/

/-- Whether a field of a decoded message is absent can be read off the parameters. -/
theorem field_none {raw : Bytes} {m : M3UA} (hp : M3UA.parse raw = .ok m) {k : Kind} (hk : m.kind = some k) {n : PName}
    (hn : n ∈ k.params) : m.field n = none ↔ ∃ qs, ParamSeq (raw.drop 8) qs ∧ ∀ q ∈ qs, q.1 ≠ n.tag := by
  have hseq : ∃ qs, ParamSeq (raw.drop 8) qs := by
    by_cases hq : ∃ qs, ParamSeq (raw.drop 8) qs
    · exact hq
    · obtain ⟨e, he⟩ := c23_bad_body _ (fun qs h => hq ⟨qs, h⟩)
      rw [he] at hp; cases hp
  obtain ⟨h8, hs⟩ := parse_kind raw m hp
  rw [hk] at hs
  have hsel : k.cls * 16 + k.typ = ((raw.getD 2 0).toNat * 16) % 256 ||| (raw.getD 3 0).toNat := by
    have := List.find?_some hs.symm
    simpa using this
  have key : ∀ qs, ParamSeq (raw.drop 8) qs → (m.field n = none ↔ ∀ q ∈ qs, q.1 ≠ n.tag) := by
    intro qs hq
    rcases c24_parse raw (by omega) k hsel qs hq with ⟨-, m', h1, -, -, h2⟩ | ⟨-, e, h1, -⟩
    · rw [hp] at h1
      cases h1
      have h2 := h2 n hn
      cases hl : lastValue n qs with
      | none =>
        rw [hl] at h2
        simp only [h2, true_iff]
        intro q hq he
        simp only [lastValue, Option.map_eq_none_iff, List.getLast?_eq_none_iff, List.filter_eq_nil_iff] at hl
        exact hl q hq (by simp [he])
      | some v =>
        rw [hl] at h2
        obtain ⟨p, h2, -⟩ := h2
        simp only [h2, reduceCtorEq, false_iff]
        exact fun h => h _ (lastValue_mem hl) rfl
    · rw [hp] at h1; cases h1
  obtain ⟨qs, hq⟩ := hseq
  exact ⟨fun h => ⟨qs, hq, (key qs hq).mp h⟩, fun ⟨qs', hq', h⟩ => (key qs' hq').mpr h⟩

theorem lacks_iff {raw : Bytes} {m : M3UA} (hp : M3UA.parse raw = .ok m) (hv : raw.getD 0 0 = 1) {k : Kind} (hk : m.kind = some k)
    {n : PName} (hn : n ∈ k.params) : Lacks k n raw ↔ m.field n = none := by
  rw [field_none hp hk hn, Lacks, meaning, hp]
  simp only [hv, if_true, hk, true_and]

theorem lacks_data {raw : Bytes} : Lacks .data .protocolData raw ↔
    ∃ m, M3UA.parse raw = .ok (.data m) ∧ raw.getD 0 0 = 1 ∧ m.protocolData = none := by
  constructor
  · intro h
    have hv := meaning_version h.1
    obtain ⟨m, hp, hk⟩ := meaning_parse h.1
    cases m <;> simp only [M3UA.kind, Option.some.injEq, reduceCtorEq] at hk
    rename_i m
    exact ⟨m, hp, hv, (lacks_iff hp hv rfl (by decide)).mp h⟩
  · rintro ⟨m, hp, hv, hn⟩
    exact (lacks_iff hp hv rfl (by decide)).mpr hn

theorem lacks_ack {raw : Bytes} : Lacks .heartbeatAck .heartbeatData raw ↔
    ∃ m, M3UA.parse raw = .ok (.heartbeatAck m) ∧ raw.getD 0 0 = 1 ∧ m.heartbeatData = none := by
  constructor
  · intro h
    have hv := meaning_version h.1
    obtain ⟨m, hp, hk⟩ := meaning_parse h.1
    cases m <;> simp only [M3UA.kind, Option.some.injEq, reduceCtorEq] at hk
    rename_i m
    exact ⟨m, hp, hv, (lacks_iff hp hv rfl (by decide)).mp h⟩
  · rintro ⟨m, hp, hv, hn⟩
    exact (lacks_iff hp hv rfl (by decide)).mpr hn

/-- What a goroutine has in common with others that panic by themselves. -/
def Blame (E : Env) (g : Gor) (s : List Ev) (o : Op) : Prop :=
  match o with
  | .crash => match g with
    | .packet raw => Lacks .heartbeatAck .heartbeatData raw ∧ ∃ e ∈ s, e = ⟨.state, .active⟩
    | .data m => m.protocolData = none ∧ s = [⟨.state, .active⟩]
    | .api c => choosesStream c = true ∧ E.maxStream = 0
    | _ => False
  | _ => True

theorem blame (E : Env) (g : Gor) : WP (Hist (Blame E g)) g (fun _ _ => True) [] (body E g) := by
  cases g with
  | monitorLoop =>
    obtain ⟨mode, cfg, hb, ms⟩ := E
    cases mode <;> wp_code [Hist.ok_eq, Hist.may_eq, Hist.next_eq, Blame] <;> simp
  | packet raw =>
    rw [body, packet_eq]
    cases hp : M3UA.parse raw with
    | ok m =>
      have hv := (M3UA.parse_octets hp).1
      cases m <;> wp_code [Hist.ok_eq, Hist.may_eq, Hist.next_eq, Facts.may, Blame, List.nil_append, List.append_assoc,
          List.cons_append]
      all_goals (try simp)
      exact fun h st _ h1 h2 => ⟨lacks_ack.mpr ⟨_, hp, hv.trans h, h2⟩, h1.symm⟩
    | _ => wp_code [] <;> simp
  | data m =>
    wp_code [Hist.ok_eq, Hist.may_eq, Hist.next_eq, Facts.may, Blame]
    simp +contextual
  | api c => cases c <;> wp_code [Hist.ok_eq, Hist.may_eq, Hist.next_eq, Blame, choosesStream] <;> simp
  | _ => wp_code [Hist.ok_eq, Hist.may_eq, Hist.next_eq, Blame] <;> simp

/-- Right after the opening the connection is idle. -/
theorem opening_idle (E : Env) : ∃ w, Reachable E w ∧ ∃ hist n k, w.threads[2]? = some ⟨.monitorLoop, hist, .op (.read n) k⟩ ∧
    (w.sh.crashed, w.sh.sctpClosed, w.sh.inbox, w.sh.st, w.sh.locked, w.sh.ctxDone) = (false, false, [], .active, false, false) := by
  have h : ∃ w, Reachable E w ∧ (w.threads[2]?.map fun t => (t.gor, match t.prog with
        | .op (.read _) _ => true
        | _ => false),
      w.sh.crashed, w.sh.sctpClosed, w.sh.inbox, w.sh.st, w.sh.locked, w.sh.ctxDone) =
      (some (.monitorLoop, true), false, false, [], .active, false, false) := by
    obtain ⟨mode, cfg, hb, ms⟩ := E
    refine reach_of (cs := opening mode) ?_
    cases mode <;> kernel_rfl
  obtain ⟨w, hw, he⟩ := h
  simp only [Prod.mk.injEq, Option.map_eq_some_iff] at he
  obtain ⟨⟨t, ht, h1, h2⟩, he⟩ := he
  obtain ⟨g, hist, p⟩ := t
  simp only at h1 h2
  subst h1
  split at h2
  · exact ⟨w, hw, _, _, _, ht, by simpa using he⟩
  · cases h2

/-- A crash is the last thing that happens. -/
theorem crashed_last {E : Env} {w : World} (h : Reachable E w) (hc : w.sh.crashed = true) :
    ∃ (w₀ : World) (i : Nat) (g : Gor) (hist : List Ev) (o : Op) (k : Resp o → Prog (Option Gor)), Reachable E w₀ ∧ w₀.sh.crashed = false ∧
      w₀.threads[i]? = some ⟨g, hist, .op o k⟩ ∧ Crashes w₀.sh o ∧
      w = { w₀ with sh := { w₀.sh with crashed := true } } := by
  rw [Reachable] at h
  cases h with
  | refl => cases hc
  | @tail w₀ _ h₀ hs =>
    cases hs with
    | env h1 he => cases he <;> (rw [h1] at hc; cases hc)
    | call c h1 _ => rw [h1] at hc; cases hc
    | run i g hist o k r h1 _ hx =>
      cases hx <;> (simp only at hc; rw [h1] at hc; cases hc)
    | sync i j gi gj hi hj oi oj ki kj ri rj h1 _ _ _ hx => cases hx <;> (simp only at hc; rw [h1] at hc; cases hc)
    | loop i g g' hist h1 _ => rw [h1] at hc; cases hc
    | crash i g hist o k h1 ht hx => exact ⟨w₀, i, g, hist, o, k, h₀, h1, ht, hx, rfl⟩

/-- C56: the process panics only because a DATA message without Protocol Data or a Heartbeat Ack without Heartbeat Data was
received, or because `Write` or `WritePD` was called on a connection without streams, or after the connection was being closed
(see C55). -/
theorem c56_causes {E : Env} {w : World} (h : Reachable E w) (hc : w.sh.crashed = true) :
    (∃ raw ∈ receives w.trace, Poison raw) ∨ (E.maxStream = 0 ∧ ∃ t ∈ w.threads, ∃ c, t.gor = .api c ∧ choosesStream c = true) ∨
      ∃ x ∈ w.trace, x.ev.op = .closeEst := by
  obtain ⟨w₀, i, g, hist, o, k, h₀, -, ht, hx, rfl⟩ := crashed_last h hc
  obtain ⟨ss, -, hi⟩ := Lock.reach h₀
  have closed : w₀.sh.estClosed = true → ∃ x ∈ w₀.trace, x.ev.op = .closeEst := by
    obtain ⟨ss, -, hi⟩ := Est.reach h₀
    exact hi.closed
  cases hx with
  | crash =>
    obtain ⟨hp, pre, hof, -⟩ := (Follows.reach h₀).2 i _ ht
    have hr : Hist.Real hist := by
      intro e he
      refine Hist.real_of h₀ i e ?_
      rw [hof]
      simp only [List.map_append, List.map_map, List.mem_append]
      exact .inr (List.mem_map.mpr ⟨e, he, rfl⟩)
    have hb : Blame E g hist .crash := by
      exact (wp_op.mp (Hist.now (blame E g) hr hp)).1
    have hsrc := Flow.pending h₀ ht
    cases g <;> simp only [Blame] at hb
    · rename_i raw
      exact .inl ⟨raw, hsrc, .inr hb.1⟩
    · rename_i m
      obtain ⟨raw, h1, h2, h3⟩ := hsrc
      exact .inl ⟨raw, h1, .inl (lacks_data.mpr ⟨m, h3, meaning_version h2, hb.1⟩)⟩
    · rename_i c
      exact .inr (.inl ⟨hb.2, _, List.mem_of_getElem? ht, c, rfl, hb.1⟩)
  | sendEst hcl => exact .inr (.inr (closed hcl))
  | closeEst hcl => exact .inr (.inr (closed hcl))
  | sendAck hcl => exact .inr (.inr (closed (hi.ack hcl)))
  | closeAck hcl => exact .inr (.inr (closed (hi.ack hcl)))
  | sendData hcl => exact .inr (.inr (closed (hi.data hcl)))
  | closeData hcl => exact .inr (.inr (closed (hi.data hcl)))

/-- C56: whenever a connection is in AspActive and waits for the next datagram, a single poisoned message makes the process
panic. -/
theorem c56_poison {E : Env} {w : World} (h : Reachable E w) {hist : List Ev} {n : Nat} {k : Resp (.read n) → Prog (Option Gor)}
    (ht : w.threads[2]? = some ⟨.monitorLoop, hist, .op (.read n) k⟩) (hc : w.sh.crashed = false) (hs : w.sh.sctpClosed = false)
    (hq : w.sh.inbox = []) (hst : w.sh.st = .active) (hl : w.sh.locked = false) (hctx : w.sh.ctxDone = false) {raw : Bytes}
    (hraw : raw.length ≤ 1500) (hp : Poison raw) :
    ∃ w', Steps E w w' ∧ receives w'.trace = receives w.trace ++ [raw] ∧ w'.sh.crashed = true := by
  obtain ⟨w₁, s₁, e₁, t₁, l₁, r₁⟩ := arrive h ht hc hs hq raw hraw
  have hr₁ : receives w₁.trace = receives w.trace ++ [raw] := by
    rw [r₁, Flow.receives_append]; rfl
  have hbody : ∃ p, (Thread.fresh E (.packet raw)).prog = p ∧ p = (packet E raw >>= fun _ => pure none) := ⟨_, rfl, rfl⟩
  obtain ⟨p, hbody, hpk⟩ := hbody
  rw [packet_eq] at hpk
  rcases hp with hp | hp
  · obtain ⟨m, hpm, hv, hn⟩ := lacks_data.mp hp
    rw [hpm] at hpk
    have hv : (M3UA.data m).version = 1 := ((M3UA.parse_octets hpm).1).symm.trans hv
    have e₂ : ∃ k, p = .op .ctxDone k ∧ ∃ k', k false = .op (.spawn (.data m)) k' := by
      refine ⟨_, hpk, ?_⟩
      simp only [hv]
      exact ⟨_, rfl⟩
    obtain ⟨k₁, e₂, k₂, e₃⟩ := e₂
    have t₁ : w₁.threads[w.threads.length]? = some ⟨.packet raw, [], .op .ctxDone k₁⟩ := by rw [t₁, ← e₂, ← hbody]; rfl
    have x₂ : Exec w₁.sh .ctxDone false w₁.sh := by
      have := Exec.ctxDone (sh := w₁.sh); rwa [show w₁.sh.ctxDone = false by rw [e₁]; exact hctx] at this
    obtain ⟨w₂, s₂, f₂, t₂, r₂, -⟩ := Step.go (E := E) (by rw [e₁]; exact hc) t₁ x₂
    rw [e₃] at t₂
    obtain ⟨w₃, s₃, f₃, t₃, r₃, n₃⟩ := Step.go (E := E) (by rw [f₂, e₁]; exact hc) t₂ .spawn
    have t₃ := n₃ _ rfl
    have hb : (Thread.fresh E (.data m)) = ⟨.data m, [], .op .state fun s => if s ≠ .active then
        .op (.sendErr (.unexpectedMessage (.data m))) fun _ => .ret none else crash⟩ := by
      rw [Thread.fresh, body, handleData_eq, hn]
      congr 1
      show Prog.op _ _ = _
      congr 1; funext s
      show Prog.bind _ _ = _
      by_cases hs : s ≠ .active
      · simp only [if_pos hs]; rfl
      · simp only [if_neg hs]
        show Prog.op _ _ = Prog.op _ _
        congr 1; funext r; exact r.elim
    rw [hb] at t₃
    have h₃ : w₃.sh = w.sh := by rw [f₃, f₂, e₁]
    have x₄ : Exec w₃.sh .state .active w₃.sh := by
      have := Exec.state (sh := w₃.sh) (by rw [h₃]; exact hl); rwa [show w₃.sh.st = .active by rw [h₃]; exact hst] at this
    obtain ⟨w₄, s₄, f₄, t₄, r₄, -⟩ := Step.go (E := E) (by rw [h₃]; exact hc) t₃ x₄
    refine ⟨_, .tail (.tail (.tail (.tail s₁ s₂) s₃) s₄) (.crash _ _ _ _ _ (by rw [f₄, h₃]; exact hc) t₄ .crash), ?_, rfl⟩
    show receives w₄.trace = _
    simp only [r₄, r₃, r₂, Flow.receives_append, hr₁]
    simp [receives, received?]
  · obtain ⟨m, hpm, hv, hn⟩ := lacks_ack.mp hp
    rw [hpm] at hpk
    have hv : (M3UA.heartbeatAck m).version = 1 := ((M3UA.parse_octets hpm).1).symm.trans hv
    have e₂ : ∃ k, p = .op .ctxDone k ∧ ∃ k', k false = .op .state k' ∧ ∃ k₂, k' .active = .op .getBeat k₂ ∧
        ∀ b, ∃ k₃, k₂ b = .op .crash k₃ := by
      refine ⟨_, hpk, ?_⟩
      simp only [hv]
      rw [handleHeartbeatAck_eq, hn]
      exact ⟨_, rfl, _, rfl, fun b => ⟨_, rfl⟩⟩
    obtain ⟨k₁, e₂, k₂, e₃, k₃, e₄, e₅⟩ := e₂
    have t₁ : w₁.threads[w.threads.length]? = some ⟨.packet raw, [], .op .ctxDone k₁⟩ := by rw [t₁, ← e₂, ← hbody]; rfl
    have x₂ : Exec w₁.sh .ctxDone false w₁.sh := by
      have := Exec.ctxDone (sh := w₁.sh); rwa [show w₁.sh.ctxDone = false by rw [e₁]; exact hctx] at this
    obtain ⟨w₂, s₂, f₂, t₂, r₂, -⟩ := Step.go (E := E) (by rw [e₁]; exact hc) t₁ x₂
    rw [e₃] at t₂
    have h₂ : w₂.sh = w.sh := by rw [f₂, e₁]
    have x₃ : Exec w₂.sh .state .active w₂.sh := by
      have := Exec.state (sh := w₂.sh) (by rw [h₂]; exact hl); rwa [show w₂.sh.st = .active by rw [h₂]; exact hst] at this
    obtain ⟨w₃, s₃, f₃, t₃, r₃, -⟩ := Step.go (E := E) (by rw [h₂]; exact hc) t₂ x₃
    rw [e₄] at t₃
    obtain ⟨w₄, s₄, f₄, t₄, r₄, -⟩ := Step.go (E := E) (by rw [f₃, h₂]; exact hc) t₃ .getBeat
    obtain ⟨k₄, e₅⟩ := e₅ _
    rw [e₅] at t₄
    refine ⟨_, .tail (.tail (.tail (.tail s₁ s₂) s₃) s₄) (.crash _ _ _ _ _ (by rw [f₄, f₃, h₂]; exact hc) t₄ .crash), ?_, rfl⟩
    show receives w₄.trace = _
    simp only [r₄, r₃, r₂, Flow.receives_append, hr₁]
    simp [receives, received?]

/-- C56: the handler of a DATA message without Protocol Data that has seen AspActive can do nothing but panic. -/
theorem c56_doomed {E : Env} {w : World} (h : Reachable E w) {i : Nat} {t : Thread} (ht : w.threads[i]? = some t) {m : Msg.Data}
    (hg : t.gor = .data m) (hm : m.protocolData = none) (ho : .active ∈ observes (w.of i)) : ∃ k, t.prog = .op .crash k := by
  obtain ⟨h1, h2⟩ := Follows.once h ht hg rfl
  rw [body, handleData_eq, hm] at h1
  have h1 : Path (.op .state _) t.hist t.prog := h1
  rcases Path.op_iff.mp h1 with ⟨h3, -⟩ | ⟨s, h', h3, h4⟩
  · rw [h2, h3] at ho; simp [observes] at ho
  · by_cases hs : s = .active
    · subst hs
      have h4 : Path (.op .crash _) h' t.prog := h4
      rcases Path.op_iff.mp h4 with ⟨-, h4⟩ | ⟨r, -⟩
      · exact ⟨_, h4⟩
      · exact r.elim
    · have h4 : Path ((if s ≠ .active then .op (.sendErr (.unexpectedMessage (.data m))) .ret else crash : Prog Unit).bind _) h' t.prog := h4
      rw [if_pos hs] at h4
      have h4 : Path (.op (.sendErr (.unexpectedMessage (.data m))) _) h' t.prog := h4
      exfalso
      have hobs : observes (w.of i) = [s] := by
        rw [h2, h3]
        rcases Path.op_iff.mp h4 with ⟨h4, -⟩ | ⟨r, h'', h4, h5⟩
        · rw [h4]; rfl
        · have h5 : Path (.ret none) h'' t.prog := h5
          rw [h4, (Path.ret_iff.mp h5).1]; rfl
      rw [hobs] at ho
      exact hs (List.mem_singleton.mp ho).symm

/-- For `c56_poison`: a DATA message without parameters and a Heartbeat Ack without parameters. -/
example : Poison [1, 0, 1, 1, 0, 0, 0, 8] ∧ Poison [1, 0, 3, 6, 0, 0, 0, 8] :=
  ⟨.inl ⟨by decide +kernel, [], .nil, by simp⟩, .inr ⟨by decide +kernel, [], .nil, by simp⟩⟩

/-- For `c56_poison`: right after the opening the connection waits for the next datagram in AspActive. -/
example : ∃ w, Reachable E₀ w ∧ ∃ hist n k, w.threads[2]? = some ⟨.monitorLoop, hist, .op (.read n) k⟩ ∧
    (w.sh.crashed, w.sh.sctpClosed, w.sh.inbox, w.sh.st, w.sh.locked, w.sh.ctxDone) = (false, false, [], .active, false, false) := by
  have h := opening_idle E₀
  exact h

/-- For `c56_causes` and `c56_doomed`: the handler of a DATA message without Protocol Data has seen AspActive. -/
example : ∃ w, Reachable E₀ w ∧ (w.threads[6]?.map Thread.gor, observes (w.of 6), w.sh.crashed) =
    (some (.data ⟨⟨1, 0, 1, 1, 8, []⟩, none, none, none, none⟩), [.active], true) :=
  reach_of (cs := opening .client ++ [.deliver [1, 0, 1, 1, 0, 0, 0, 8]] ++ go 2 2 ++ go 5 2 ++ go 6 1 ++ [.crash 6]) (by kernel_rfl)

/-- For `c56_causes`: `Write` on a connection without streams. -/
example : ∃ w, Reachable { E₀ with maxStream := 0 } w ∧ (w.sh.crashed, receives w.trace, calls w) = (true, [ackMsg], [.write [7]]) :=
  reach_of (cs := opening .client ++ [.call (.write [7]), .crash 5]) (by kernel_rfl)

/-! ### C55: closing -/

/-- C55: once the handling of everything received has come to rest, the process does not panic as long as nothing is received,
whatever the user does; in particular the connection can be closed any number of times, and concurrently. -/
theorem c55_rest {E : Env} {w w' : World} (h : Reachable E w) (hc : w.sh.crashed = false) (hr : AtRest w)
    (ho : ∀ x ∈ w.trace, x.ev.op ≠ .closeEst) (hm : E.maxStream ≠ 0) (hs : Steps E w w')
    (hn : receives w'.trace = receives w.trace) : w'.sh.crashed = false := by
  obtain ⟨ss, hl, hi⟩ := Lock.reach h
  have hcl := Est.notClosed h ho
  have ha : w.sh.ackClosed = false := by
    cases ha : w.sh.ackClosed with
    | false => rfl
    | true => rw [hi.ack ha] at hcl; cases hcl
  have hd : w.sh.dataClosed = false := by
    cases hd : w.sh.dataClosed with
    | false => rfl
    | true => rw [hi.data hd] at hcl; cases hcl
  have hot : ∀ (i : Nat) (t : Thread) (s : Lock.S), w.threads[i]? = some t → ss[i]? = some s → s.hot = true → t.prog = .ret none := by
    intro i t s ht hsi hh
    have hw := hl.2 i t s ht hsi
    have hp := ((Follows.reach h).2 i t ht).1
    have hr := hr t (List.mem_of_getElem? ht)
    have htame : Lock.tame t.gor = true → t.prog = .ret none := by
      intro hg
      cases hq : t.prog with
      | op o k =>
        rw [hq] at hw
        have := hw.1.2.1 hg
        rw [hh] at this; cases this
      | ret r =>
        cases r with
        | none => rfl
        | some g' =>
          rw [hq] at hw hp
          have := loops hp
          have hw : s = Lock.born g' := hw
          subst hw
          cases g' <;> first | (cases this; done) | (cases hh; done)
    cases hg : t.gor <;> rw [hg] at hr htame <;> simp only at hr
    case monitorLoop =>
      rcases hr with hr | ⟨n, k, hr⟩ | ⟨k, hr⟩
      · exact hr
      · rw [hr] at hw
        have : s = ⟨false, .out⟩ := hw.1.1
        subst this; cases hh
      · rw [hr] at hw
        have : s = ⟨false, .out⟩ := hw.1.1
        subst this; cases hh
    all_goals first | exact hr | exact htame rfl
  have hget : ∀ (i : Nat) (s' : Lock.S), (ss.map fun s => (⟨false, s.ph⟩ : Lock.S))[i]? = some s' →
      ∃ s, ss[i]? = some s ∧ s' = ⟨false, s.ph⟩ := by
    intro i s' hs'
    simp only [List.getElem?_map, Option.map_eq_some_iff] at hs'
    obtain ⟨s, h1, h2⟩ := hs'
    exact ⟨s, h1, h2.symm⟩
  have hI : Lock.I w.sh (ss.map fun s => (⟨false, s.ph⟩ : Lock.S)) := by
    refine ⟨?_, fun j s' hj => ?_, hi.ack, hi.data⟩
    · rw [← hi.lock]
      clear hget hot hl hi
      induction ss with
      | nil => rfl
      | cons s ss ih => exact congrArg (Lock.holds s + ·) ih
    · obtain ⟨s, h1, rfl⟩ := hget j s' hj
      exact hi.known j s h1
  have hflags : ∀ p, Lock.Known w.sh p → Lock.Flags w.sh p := by
    intro p hp
    cases p <;> first | exact .inl ⟨hcl, ha, hd⟩ | (rw [Lock.Known, hcl] at hp; cases hp)
  have hcalm : Lock.Calm w.sh (ss.map fun s => (⟨false, s.ph⟩ : Lock.S)) := by
    refine ⟨fun j s' hj => ?_, fun j s' hj _ => ?_, fun _ => .inl ⟨hcl, ha, hd⟩, hc⟩
    · obtain ⟨s, -, rfl⟩ := hget j s' hj; rfl
    · obtain ⟨s, h1, rfl⟩ := hget j s' hj
      exact hflags _ (hi.known j s h1)
  have hL : (Lock.D E).Linked w (ss.map fun s => (⟨false, s.ph⟩ : Lock.S)) := by
    refine ⟨by rw [List.length_map]; exact hl.1, fun i t s' ht hs' => ?_⟩
    obtain ⟨s, h1, rfl⟩ := hget i s' hs'
    cases hh : s.hot with
    | true =>
      have := hl.2 i t s ht h1
      rw [hot i t s ht h1 hh] at this ⊢
      exact this
    | false =>
      have := hl.2 i t s ht h1
      obtain ⟨b, p⟩ := s
      cases hh
      exact this
  obtain ⟨ss', -, -, l, h1, h2⟩ := Disc.steps (Lock.good E) (Lock.pres_calm E hm (receives w.trace))
    ⟨_, hL, hI, [], by simp, fun _ => hcalm⟩ hs
  refine (h2 ?_).crashed
  rw [hn] at h1
  simpa using h1

/-- C55: whatever the configuration and the mode, calling `Close` while a DATA message is being handled can make the process
panic, even after `Close` has returned. -/
theorem c55_close_race (E : Env) : ∃ w d pd, Reachable E w ∧ w.sh.crashed = true ∧ carries d pd ∧ receives w.trace = [ackMsg, d] ∧
    calls w = [.close] ∧ returns w.trace = [.closed true] := by
  have h : ∃ w, Reachable E w ∧ (w.sh.crashed, receives w.trace, calls w, returns w.trace) =
      (true, [ackMsg, dataMsg₁ 7], [.close], [.closed true]) := by
    obtain ⟨mode, cfg, hb, ms⟩ := E
    refine reach_of (cs := opening mode ++ [.deliver (dataMsg₁ 7)] ++ go 2 2 ++ go 5 2 ++ go 6 1 ++ [.call .close] ++ go 7 9 ++ [.crash 6]) ?_
    cases mode <;> kernel_rfl
  obtain ⟨w, hw, he⟩ := h
  simp only [Prod.mk.injEq] at he
  exact ⟨w, _, ⟨0, 0, 0, 0, 0, 0, [7]⟩, hw, he.1, by kernel_rfl, he.2.1, he.2.2.1, he.2.2.2⟩

/-- C55: whatever the configuration and the mode, without any call of the user the loss of the association while a DATA message is
being handled can make the process panic. -/
theorem c55_loss_race (E : Env) : ∃ w d pd, Reachable E w ∧ w.sh.crashed = true ∧ carries d pd ∧ receives w.trace = [ackMsg, d] ∧
    calls w = [] := by
  have h : ∃ w, Reachable E w ∧ (w.sh.crashed, receives w.trace, calls w) = (true, [ackMsg, dataMsg₁ 7], []) := by
    obtain ⟨mode, cfg, hb, ms⟩ := E
    refine reach_of (cs := opening mode ++ [.deliver (dataMsg₁ 7)] ++ go 2 2 ++ [.loop 2] ++ go 5 3 ++ [.sync 5 2] ++ go 2 4 ++ go 6 1 ++
      [.run 2 .fail] ++ go 2 5 ++ [.crash 6]) ?_
    cases mode <;> kernel_rfl
  obtain ⟨w, hw, he⟩ := h
  simp only [Prod.mk.injEq] at he
  exact ⟨w, _, ⟨0, 0, 0, 0, 0, 0, [7]⟩, hw, he.1, by kernel_rfl, he.2.1, he.2.2⟩

/-- ASP Inactive Ack without parameters. -/
def inactiveAck : Bytes := [1, 0, 4, 4, 0, 0, 0, 8]

/-- C55: whatever the configuration and the mode, calling `Close` while an ASP Inactive Ack is being handled can make the process
panic, because the monitor closes the channels a second time. -/
theorem c55_close_twice (E : Env) : ∃ w k, Reachable E w ∧ w.sh.crashed = true ∧ receives w.trace = [ackMsg, inactiveAck] ∧
    calls w = [.close] ∧ returns w.trace = [.closed true] ∧ (w.threads[2]?).map Thread.prog = some (.op .closeEst k) := by
  have h : ∃ w, Reachable E w ∧ (w.sh.crashed, receives w.trace, calls w, returns w.trace, w.threads[2]?.map fun t => match t.prog with
        | .op .closeEst _ => true
        | _ => false) =
      (true, [ackMsg, inactiveAck], [.close], [.closed true], some true) := by
    obtain ⟨mode, cfg, hb, ms⟩ := E
    refine reach_of (cs := opening mode ++ [.deliver inactiveAck] ++ go 2 2 ++ [.loop 2] ++ go 5 2 ++ [.call .close] ++ go 6 9 ++ [.sync 5 2] ++
      (match mode with
      | .client => go 2 4 ++ [.run 2 .fail] ++ go 2 1
      | .server => go 2 4) ++ [.run 2 .fail] ++ go 2 2 ++ [.crash 2]) ?_
    cases mode <;> kernel_rfl
  obtain ⟨w, hw, he⟩ := h
  simp only [Prod.mk.injEq, Option.map_eq_some_iff] at he
  obtain ⟨h1, h2, h3, h4, t, ht, h5⟩ := he
  split at h5
  · rename_i k hk
    exact ⟨w, k, hw, h1, h2, h3, h4, by rw [ht]; exact congrArg some hk⟩
  · cases h5

/-- Decides `AtRest`. -/
def restB (w : World) : Bool := w.threads.all fun t =>
  match t.gor, t.prog with
  | .packet _, .ret none | .data _, .ret none | .start, .ret none => true
  | .packet _, _ | .data _, _ | .start, _ => false
  | .monitorLoop, .ret none | .monitorLoop, .op (.read _) _ | .monitorLoop, .op .monSelect _ => true
  | .monitorLoop, _ => false
  | _, _ => true

theorem restB_sound {w : World} (h : restB w = true) : AtRest w := by
  intro t ht
  have h := List.all_eq_true.mp h t ht
  obtain ⟨g, hist, p⟩ := t
  cases g <;> simp only <;> (split at h <;> simp_all)

/-- Whether `Close` has closed something. -/
def closedB (w : World) : Bool := w.trace.any fun x =>
  match x.ev.op with
  | .closeEst => true
  | _ => false

theorem closedB_sound {w : World} (h : closedB w = false) : ∀ x ∈ w.trace, x.ev.op ≠ .closeEst := by
  intro x hx he
  have := List.any_eq_false.mp h x hx
  rw [he] at this
  exact this rfl

/-- For `c55_rest`: a connection at rest that is then closed three times. -/
example : ∃ w, Reachable E₀ w ∧ w.sh.crashed = false ∧ AtRest w ∧ (∀ x ∈ w.trace, x.ev.op ≠ .closeEst) ∧ E₀.maxStream ≠ 0 ∧
    ∃ w', Steps E₀ w w' ∧ receives w'.trace = receives w.trace ∧ returns w'.trace = [.closed true, .closed true, .closed true] := by
  have h : ∃ w w', Reachable E₀ w ∧ Steps E₀ w w' ∧ (w.sh.crashed, restB w, closedB w, receives w.trace, receives w'.trace, returns w'.trace) =
      (false, true, false, [ackMsg], [ackMsg], [.closed true, .closed true, .closed true]) :=
    reach_then (cs := opening .client) (ds := [.call .close, .call .close, .call .close] ++ go 6 9 ++ go 5 5 ++ go 7 5 ++ [.run 2 .fail] ++ go 2 5)
      (f := fun w w' => (w.sh.crashed, restB w, closedB w, receives w.trace, receives w'.trace, returns w'.trace)) (by kernel_rfl)
  obtain ⟨w, w', h1, h2, h3⟩ := h
  simp only [Prod.mk.injEq] at h3
  obtain ⟨h3, h4, h5, h6, h7, h8⟩ := h3
  exact ⟨w, h1, h3, restB_sound h4, closedB_sound h5, by decide, w', h2, h7.trans h6.symm, h8⟩

end M3.Conn
