import Verif.Props.Truncated
import Verif.Props.Conn.Crash

/- What a connection makes of a datagram of which only the beginning has arrived: C121. -/

set_option autoImplicit false
set_option linter.unusedSimpArgs false

namespace M3.Conn

open M3.Spec

namespace Cut

theorem first {b : Bytes} {n : Nat} (hn : 8 ≤ n) {i : Nat} (hi : i < 8) : (b.take n).getD i 0 = b.getD i 0 := by
  simp only [List.getD_eq_getElem?_getD, List.getElem?_take]
  rw [if_pos (by omega)]

theorem seq {b : Bytes} {qs rs : List (Nat × Bytes)} {n : Nat} (hq : ParamSeq (b.drop 8) qs) (h8 : 8 ≤ n) (hn : n ≤ b.length) (hr : rs <+: qs)
    (hf : Fills rs (n - 8)) : ParamSeq ((b.take n).drop 8) rs := by
  rw [List.drop_take]
  exact (Truncated.seq_take_iff hq (by rw [List.length_drop]; omega) rs).mpr ⟨hr, hf⟩

end Cut

/-- C121: to a connection the beginning of a message means what the whole message means. -/
theorem c121_means {b : Bytes} {k : Kind} (hm : meaning b = some k) {qs : List (Nat × Bytes)} (hq : ParamSeq (b.drop 8) qs) {n : Nat}
    (h8 : 8 ≤ n) (hn : n ≤ b.length) {rs : List (Nat × Bytes)} (hr : rs <+: qs) (hf : Fills rs (n - 8)) : meaning (b.take n) = some k := by
  obtain ⟨m, hp, hk⟩ := meaning_parse hm
  obtain ⟨m', h'⟩ := (c121_accepts b m hp qs hq n hn).mpr ⟨h8, rs, hr, hf⟩
  obtain ⟨h1, -⟩ := c121_message b m hp qs hq n hn m' h'
  rw [meaning, h']
  simp only
  rw [if_pos (by rw [Cut.first h8 (by omega)]; exact meaning_version hm), h1, hk]

/-- C121: so a message loses its parameters without losing its effect, and without its main parameter a DATA message or a Heartbeat Ack is
one of those that make the process panic (C56). -/
theorem c121_poison {b : Bytes} {k : Kind} {p : PName} (hk : (k = .data ∧ p = .protocolData) ∨ (k = .heartbeatAck ∧ p = .heartbeatData))
    (hm : meaning b = some k) {qs : List (Nat × Bytes)} (hq : ParamSeq (b.drop 8) qs) {n : Nat}
    (h8 : 8 ≤ n) (hn : n ≤ b.length) {rs : List (Nat × Bytes)} (hr : rs <+: qs) (hf : Fills rs (n - 8)) (hx : ∀ q ∈ rs, q.1 ≠ p.tag) :
    Poison (b.take n) := by
  have h1 := c121_means hm hq h8 hn hr hf
  have h2 := Cut.seq hq h8 hn hr hf
  rcases hk with ⟨rfl, rfl⟩ | ⟨rfl, rfl⟩
  · exact .inl ⟨h1, rs, h2, hx⟩
  · exact .inr ⟨h1, rs, h2, hx⟩

/-- C121: a DATA message that was cut after its Protocol Data is delivered as if it were complete. -/
theorem c121_delivered {b : Bytes} {pd : ProtocolDataPayload} (hc : carries b pd = true) {qs : List (Nat × Bytes)} (hq : ParamSeq (b.drop 8) qs)
    {n : Nat} (h8 : 8 ≤ n) (hn : n ≤ b.length) {rs : List (Nat × Bytes)} (hr : rs <+: qs) (hf : Fills rs (n - 8))
    (hl : lastValue .protocolData rs = lastValue .protocolData qs) : carries (b.take n) pd = true := by
  obtain ⟨m, p, hp, hm, -, h3, -⟩ := carries_data hc
  have hv : m.protocolData.map Param.data = some (valueOf pd) := (carries_iff hm hp pd).mp hc
  have hm' := c121_means hm hq h8 hn hr hf
  obtain ⟨m', hp', hk'⟩ := meaning_parse hm'
  cases m' <;> simp only [M3UA.kind, Option.some.injEq, reduceCtorEq] at hk'
  rename_i m'
  refine (carries_iff hm' hp' pd).mpr ?_
  obtain ⟨b8, -⟩ := parse_kind _ _ hp
  obtain ⟨b8', -⟩ := parse_kind _ _ hp'
  have get : ∀ {c : Bytes} {d : Msg.Data} {ps : List (Nat × Bytes)}, M3UA.parse c = .ok (.data d) → 8 ≤ c.length → ParamSeq (c.drop 8) ps →
      d.protocolData.map Param.data = lastValue .protocolData ps := by
    intro c d ps h1 h2 h3
    rcases c24_parse c h2 .data ((c21_all c _ h1 .data).mp rfl) ps h3 with ⟨-, x, e1, -, -, e2⟩ | ⟨-, e, e1, -⟩
    · rw [h1] at e1; cases e1
      have e2 := e2 .protocolData (by decide)
      split at e2
      · rename_i v hv
        obtain ⟨q, e3, -, e4, -⟩ := e2
        have e3 : d.protocolData = some q := e3
        rw [e3, hv, Option.map_some, e4]
      · rename_i hv
        have e2 : d.protocolData = none := e2
        rw [e2, hv]; rfl
    · rw [h1] at e1; cases e1
  rw [get hp' b8' (Cut.seq hq h8 hn hr hf), hl, ← get hp b8 hq, hv]

/-- C121: of every DATA message, whatever it carries, the first eight octets are enough to make the process of a connection that works
panic. -/
theorem c121_crash {E : Env} {w : World} (h : Reachable E w) {hist : List Ev} {n : Nat} {k : Resp (.read n) → Prog (Option Gor)}
    (ht : w.threads[2]? = some ⟨.monitorLoop, hist, .op (.read n) k⟩) (hc : w.sh.crashed = false) (hs : w.sh.sctpClosed = false)
    (hi : w.sh.inbox = []) (hst : w.sh.st = .active) (hl : w.sh.locked = false) (hctx : w.sh.ctxDone = false) {b : Bytes}
    (hm : meaning b = some .data) : ∃ w', Steps E w w' ∧ receives w'.trace = receives w.trace ++ [b.take 8] ∧ w'.sh.crashed = true := by
  obtain ⟨m, hp, -⟩ := meaning_parse hm
  obtain ⟨h8, -⟩ := parse_kind b m hp
  obtain ⟨qs, hq⟩ := Truncated.seq_of_parse hp
  refine c56_poison h ht hc hs hi hst hl hctx (by rw [List.length_take]; omega) ?_
  exact c121_poison (.inl ⟨rfl, rfl⟩) hm hq (Nat.le_refl _) h8 List.nil_prefix (.inl ⟨rfl, rfl⟩) (by simp)

/-- A DATA message with a Network Appearance, Protocol Data whose last octet needs padding, and a Correlation Id. -/
def Cut.sample : Bytes := [1, 0, 1, 1, 0, 0, 0, 44,  2, 0, 0, 8, 0, 0, 0, 7,
  2, 0x10, 0, 17, 0, 0, 0, 1, 0, 0, 0, 2, 3, 2, 0, 9, 0x61, 0, 0, 0,  0, 0x13, 0, 8, 0, 0, 0, 5]

def Cut.params : List (Nat × Bytes) := [(0x200, [0, 0, 0, 7]), (0x210, [0, 0, 0, 1, 0, 0, 0, 2, 3, 2, 0, 9, 0x61]), (0x13, [0, 0, 0, 5])]

/-- For `c121_params`, `c121_accepts`, `c121_message` and the others: the sample is accepted, and of its beginnings exactly those with 8, 16, 33 to
36 and 44 octets; with 16 octets it has no Protocol Data, with 33 it is delivered. -/
example : meaning Cut.sample = some .data ∧ carries Cut.sample ⟨1, 2, 3, 2, 0, 9, [0x61]⟩ = true ∧ ParamSeq (Cut.sample.drop 8) Cut.params ∧
    (List.range 45).filter (fun n => (meaning (Cut.sample.take n)).isSome) = [8, 16, 33, 34, 35, 36, 44] ∧
    Fills (Cut.params.take 1) 8 ∧ Fills (Cut.params.take 2) 25 ∧ Poison (Cut.sample.take 16) ∧
    carries (Cut.sample.take 33) ⟨1, 2, 3, 2, 0, 9, [0x61]⟩ = true := by
  have hq : ParamSeq (Cut.sample.drop 8) Cut.params :=
    .cons 0x200 [0, 0, 0, 7] [] _ _ (by decide) (by decide) (by decide)
      (.cons 0x210 [0, 0, 0, 1, 0, 0, 0, 2, 3, 2, 0, 9, 0x61] [0, 0, 0] _ _ (by decide) (by decide) (by decide)
        (.cons 0x13 [0, 0, 0, 5] [] [] [] (by decide) (by decide) (by decide) .nil))
  have f1 : Fills (Cut.params.take 1) 8 := .inr ⟨[], _, rfl, by decide, by decide⟩
  have f2 : Fills (Cut.params.take 2) 25 := .inr ⟨Cut.params.take 1, _, rfl, by decide, by decide⟩
  have hm : meaning Cut.sample = some .data := by decide +kernel
  have hc : carries Cut.sample ⟨1, 2, 3, 2, 0, 9, [0x61]⟩ = true := by decide +kernel
  exact ⟨hm, hc, hq, by decide +kernel, f1, f2,
    c121_poison (.inl ⟨rfl, rfl⟩) hm hq (n := 16) (by decide) (by decide) (List.take_prefix 1 _) f1 (by decide),
    c121_delivered hc hq (n := 33) (by decide) (by decide) (List.take_prefix 2 _) f2 (by decide)⟩

end M3.Conn
