import Verif.Lemmas.Conn.PulseEven
import Verif.Props.Conn.Handling
import Verif.Props.Conn.Flow

/- Two endpoints with heartbeats: each end is a peer the other end can live with. -/

set_option autoImplicit false
set_option linter.unusedSimpArgs false

namespace M3.Conn.Pulse

open Spec
open Calm (hand hand_length Meets Peaceful.before take_prefix growth)

/-! ### Heartbeats and their answers -/

/-- The answer to a heartbeat with data `d`. -/
def replyOf (d : Bytes) : Bytes := message 1 3 6 [tlv 9 d]

theorem beat_facts {d : Bytes} (hd : d.length = 128) :
    meaning (beatOf d) = some .heartbeat ∧ Flow.echo (beatOf d) = some (replyOf d) ∧ (beatOf d).length ≤ 1500 := by
  obtain ⟨h1, h2⟩ := c45_data (d := d) (by rw [hd]; decide)
  refine ⟨h1, ?_, by simp [beatOf, message, tlv, be16, be32, hd, pad]⟩
  obtain ⟨m, hp, -, hk⟩ := meaning_some h1
  cases m <;> simp only [M3UA.kind, Option.some.injEq, reduceCtorEq] at hk
  rename_i m
  have := h2 m hp
  rw [← heartbeat_wire hp] at this
  unfold Flow.echo beatOf
  rw [hp]
  exact congrArg some this

theorem reply_facts {d : Bytes} (hd : d.length = 128) :
    meaning (replyOf d) = some .heartbeatAck ∧ ackData (replyOf d) = some d ∧ (replyOf d).length ≤ 1500 := by
  have hseq : ParamSeq ((replyOf d).drop 8) [(9, d)] := by
    have := ParamSeq.cons 9 d (List.replicate (pad d.length) 0) [] [] (by omega) (by rw [hd]; decide) (by simp) .nil
    have e : (replyOf d).drop 8 = tlv 9 d := by simp [replyOf, message, be32]
    rw [e, tlv]
    simpa using this
  have hl : 8 ≤ (replyOf d).length := by simp [replyOf, message, be32]
  have ho : (replyOf d).getD 2 0 = 3 ∧ (replyOf d).getD 3 0 = 6 ∧ (replyOf d).getD 0 0 = 1 := ⟨rfl, rfl, rfl⟩
  have hc := c24_parse (replyOf d) hl .heartbeatAck (by rw [ho.1, ho.2.1]; rfl) _ hseq
  rcases hc with ⟨_, m, hp, hk, _, hf⟩ | ⟨⟨q, hq, hne⟩, _⟩
  · have hm : meaning (replyOf d) = some .heartbeatAck := by rw [meaning, hp]; simp only [ho.2.2, if_true]; exact hk
    refine ⟨hm, ?_, by simp [replyOf, message, tlv, be16, be32, hd, pad]⟩
    cases m <;> simp only [M3UA.kind, Option.some.injEq, reduceCtorEq] at hk
    rename_i m _
    have := hf .heartbeatData (by decide)
    have hlv : lastValue .heartbeatData [(9, d)] = some d := rfl
    rw [hlv] at this
    obtain ⟨p, hp1, hp2, hp3, -⟩ := this
    have hp1 : m.heartbeatData = some p := hp1
    simp only [ackData, hm, hp]
    rw [hp1, Option.map_some, hp3]
  · simp only [List.mem_singleton] at hq
    subst hq
    exact absurd rfl (hne .heartbeatData (by decide))

/-- A goroutine that handles a datagram sends nothing but an answer. -/
theorem packet_write {E : Env} {w : World} (h : Reachable E w) {x : Rec} (hx : x ∈ w.trace) {b d : Bytes} {st : Info}
    (hg : x.gor = .packet b) (ho : x.ev.op = .write d st) : Flow.Answer b d ∧ b ∈ receives w.trace := by
  obtain ⟨l₁, l₂, hl⟩ := List.append_of_mem hx
  have hsrc := Flow.source h hl
  rw [hg] at hsrc
  refine ⟨?_, by rw [hl, Flow.receives_append]; exact List.mem_append_left _ hsrc⟩
  obtain ⟨w₀, l₃, k, hist, h₀, -, ht⟩ := h.was hl
  obtain ⟨ss, hl, -⟩ := Flow.reach (W := ⟨fun _ => 0, fun _ => 0, fun _ => 0, fun _ => 0, fun _ => 0⟩) (by constructor <;> intros <;> simp) h₀
  obtain ⟨s, hs⟩ := getElem?_some_of_length hl.1 ht
  have h1 : Flow.ok x.gor s.2 x.ev.op := (wp_op.mp (hl.2 _ _ s ht hs)).1.2
  rw [hg, ho] at h1
  exact h1.2

/-- Answers to heartbeats with certain bytes count against received heartbeats. -/
def echoes (d : Bytes) : Flow.Weights where
  raw b := if meaning b = some .heartbeat ∧ Flow.echo b = some d then 1 else 0
  data _ := 0
  pd _ := 0
  got _ := 0
  ev x := if (match x.ev.op with | .write d' _ => !ofUser x.gor && decide (d' = d) | _ => false) then 1 else 0

theorem echoes_fair {d : Bytes} (hd : octets d = (3, 6)) : (echoes d).Fair where
  data _ _ _ _ := Nat.zero_le _
  pd _ _ _ _ _ := Nat.zero_le _
  write i g s d' n r h := by
    by_cases hdd : d' = d
    · subst hdd
      cases g with
      | packet b =>
        obtain ⟨rfl, h⟩ := h
        simp only [Flow.Answer, hd] at h
        simp at h
        simp [echoes, ofUser, Flow.Weights.tok, h.1, h.2.2]
      | monitorLoop =>
        simp only [Flow.wrote, hd] at h
        simp at h
      | beatLoop =>
        simp only [Flow.wrote, hd] at h
        simp at h
      | api c => simp [echoes, ofUser]
      | _ => exact h.elim
    · simp [echoes, hdd]
  recv _ _ _ := Nat.zero_le _
  done _ _ _ _ _ := Nat.zero_le _
  other i g o r h _ _ := by
    cases o <;> simp [echoes]
    exact (h _ _ rfl).elim

theorem echoes_bound {d : Bytes} (hd : octets d = (3, 6)) {E : Env} {w : World} (h : Reachable E w) :
    (ownSends w.trace).countP (fun x => decide (x.bytes = d)) ≤
      (receives w.trace).countP (fun b => decide (meaning b = some .heartbeat ∧ Flow.echo b = some d)) := by
  have hb := Flow.bound (echoes_fair hd) h
  rw [show (echoes d).raw = fun b => if decide (meaning b = some .heartbeat ∧ Flow.echo b = some d) = true then 1 else 0 from by
    funext b; simp [echoes], tot_countP] at hb
  refine Nat.le_trans (Nat.le_of_eq ?_) (Nat.le_trans (Nat.le_add_right _ _) hb)
  rw [show (echoes d).ev = fun x => if (match x.ev.op with | .write d' _ => !ofUser x.gor && decide (d' = d) | _ => false) then 1 else 0
    from rfl, tot_countP, ownSends, sends, List.countP_filterMap, List.countP_filter]
  congr 1
  funext ⟨i, g, o, r⟩
  cases o <;> simp [sent?, Bool.and_comm]

/-! ### One end -/

/-- The messages of the handshake are neither heartbeats nor answers to heartbeats. -/
theorem hand_meaning {E : Env} {m : Mode} (hM : Meets E m) {b : Bytes} (hb : b ∈ hand E) :
    meaning b ≠ some .heartbeat ∧ meaning b ≠ some .heartbeatAck := by
  refine ⟨hM.mute b hb, ?_⟩
  obtain ⟨i, hi⟩ := List.getElem?_of_mem hb
  have := hM.expected i b hi
  have hlt := (List.getElem?_eq_some_iff.mp hi).1
  rw [hand_length] at hlt
  match i, hlt with
  | 0, _ => rw [show meaning b = _ from this]; cases m <;> (intro h; cases h)
  | 1, _ => rw [show meaning b = _ from this]; cases m <;> (intro h; cases h)

/-- An end whose peer has behaved, and has only sent heartbeats with 128 bytes. -/
structure Fine (E : Env) (w : World) : Prop where
  att : Attended E.mode w
  heard : ∀ b ∈ receives w.trace, meaning b = some .heartbeat → ∃ d, d.length = 128 ∧ b = beatOf d

/-- What a step sends after the handshake. -/
inductive Said (x : Rec) (b : Bytes) : Prop where
  | talk (h : b.length ≤ 1500) (pd : ProtocolDataPayload) (hc : carries b pd = true)
  | beat (hg : x.gor = .beatLoop) (d : Bytes) (hd : d.length = 128) (h : b = beatOf d)
  | reply (hg : ofUser x.gor = false) (d : Bytes) (hd : d.length = 128) (h : b = replyOf d)

theorem said {E : Env} (hE : E.maxStream ≠ 0) {w : World} (h : Alone E w) (hf : Fine E w) (hp : Peaceful w) :
    ∃ k t₁ t₂, w.trace = t₁ ++ t₂ ∧ (sends t₁).map (·.bytes) = (hand E).take k ∧ (sends t₂ ≠ [] → 2 ≤ k) ∧
      ∀ x ∈ t₂, ∀ s, sent? x.ev = some s → Said x s.bytes := by
  obtain ⟨⟨k, t₁, t₂, ht, a, b, c, d⟩, -, hwr, -⟩ := sent hE h hf.att
  refine ⟨k, t₁, t₂, ht, a, fun hn => ?_, fun x hx s hs => ?_⟩
  · cases hh : w.sh.handed with
    | true => exact d hh
    | false => exact (hn (c hh)).elim
  · have hxw : x ∈ w.trace := by rw [ht]; exact List.mem_append_right _ hx
    cases hu : ofUser x.gor with
    | true =>
      obtain ⟨h1, pd, h2⟩ := hp.talk x hxw hu s hs
      exact .talk h1 pd h2
    | false =>
      obtain ⟨bs, st, ho, hbs⟩ : ∃ bs st, x.ev.op = .write bs st ∧ s.bytes = bs := by
        obtain ⟨i, g, o, r⟩ := x
        cases o <;> simp only [sent?, reduceCtorEq, Option.some.injEq] at hs
        subst hs
        exact ⟨_, _, rfl, rfl⟩
      rw [hbs]
      rcases b x hx hu with h0 | hg | ⟨raw, hg, hm⟩
      · have : s ∈ sends [x] := List.mem_filterMap.mpr ⟨x, List.mem_singleton.mpr rfl, hs⟩
        rw [h0] at this; cases this
      · obtain ⟨d, h1, h2⟩ := hwr x hxw hg bs st ho
        exact .beat hg d h1 h2
      · obtain ⟨h1, h2⟩ := packet_write h.reachable hxw hg ho
        obtain ⟨d, hd, rfl⟩ := hf.heard raw h2 hm
        refine .reply hu d hd ?_
        simp only [Flow.Answer, hm, (beat_facts hd).2.1] at h1
        simp at h1
        exact h1.2.symm

theorem Said.short {x : Rec} {b : Bytes} (h : Said x b) : b.length ≤ 1500 := by
  cases h with
  | talk h => exact h
  | beat _ d hd h => rw [h]; exact (beat_facts hd).2.2
  | reply _ d hd h => rw [h]; exact (reply_facts hd).2.2

theorem carries_kind {b : Bytes} {pd : ProtocolDataPayload} (h : carries b pd = true) : meaning b = some .data := by
  obtain ⟨d, p, h1, h2, -⟩ := carries_data h
  exact h2

theorem Said.heartbeat {x : Rec} {b : Bytes} (h : Said x b) (hm : meaning b = some .heartbeat) :
    x.gor = .beatLoop ∧ ∃ d, d.length = 128 ∧ b = beatOf d := by
  cases h with
  | talk _ pd h => rw [carries_kind h] at hm; cases hm
  | beat hg d hd h => exact ⟨hg, d, hd, h⟩
  | reply _ d hd h => rw [h, (reply_facts hd).1] at hm; cases hm

theorem Said.ack {x : Rec} {b : Bytes} (h : Said x b) (hm : meaning b = some .heartbeatAck) :
    ofUser x.gor = false ∧ ∃ d, d.length = 128 ∧ b = replyOf d := by
  cases h with
  | talk _ pd h => rw [carries_kind h] at hm; cases hm
  | beat hg d hd h => rw [h, (beat_facts hd).1] at hm; cases hm
  | reply hg d hd h => exact ⟨hg, d, hd, h⟩

theorem Said.expected {x : Rec} {b : Bytes} (h : Said x b) (m : Mode) {i : Nat} (hi : 2 ≤ i) : expectedOrAck m i b := by
  match i, hi with
  | i + 2, hi =>
    cases h with
    | talk _ pd h => exact .inl (.inl ⟨pd, h⟩)
    | beat _ d hd h => rw [h]; exact .inl (.inr (.inl (beat_facts hd).1))
    | reply _ d hd h => rw [h]; exact .inr ⟨hi, (reply_facts hd).1⟩

/-- Everything an end has sent. -/
theorem said_all {E : Env} (hE : E.maxStream ≠ 0) {w : World} (h : Alone E w) (hf : Fine E w) (hp : Peaceful w) {x : Rec} (hx : x ∈ w.trace)
    {s : Spec.Sent} (hs : sent? x.ev = some s) : s.bytes ∈ hand E ∨ Said x s.bytes := by
  obtain ⟨k, t₁, t₂, ht, a, -, b⟩ := said hE h hf hp
  rw [ht] at hx
  rcases List.mem_append.mp hx with hx | hx
  · left
    have : s.bytes ∈ (sends t₁).map (·.bytes) := List.mem_map.mpr ⟨s, List.mem_filterMap.mpr ⟨x, hx, hs⟩, rfl⟩
    rw [a] at this
    exact List.mem_of_mem_take this
  · exact .inr (b x hx s hs)

theorem out_said {E : Env} (hE : E.maxStream ≠ 0) {w : World} (h : Alone E w) (hf : Fine E w) (hp : Peaceful w) {b : Bytes} (hb : b ∈ w.out) :
    b ∈ hand E ∨ ∃ x, Said x b := by
  obtain ⟨s, hs, rfl⟩ := List.mem_map.mp hb
  obtain ⟨x, hx, hxs⟩ := List.mem_filterMap.mp hs
  rcases said_all hE h hf hp hx hxs with h | h
  · exact .inl h
  · exact .inr ⟨x, h⟩

theorem out_short {E : Env} (hE : E.maxStream ≠ 0) {m : Mode} (hM : Meets E m) {w : World} (h : Alone E w) (hf : Fine E w) (hp : Peaceful w) :
    ∀ b ∈ w.out, b.length ≤ 1500 := by
  intro b hb
  rcases out_said hE h hf hp hb with h | ⟨x, h⟩
  · exact hM.short b h
  · exact h.short

/-- Heartbeats are sent by the goroutine that is there for it. -/
theorem out_beats {E : Env} (hE : E.maxStream ≠ 0) {m : Mode} (hM : Meets E m) {w : World} (h : Alone E w) (hf : Fine E w) (hp : Peaceful w)
    {d : Bytes} (hd : d.length = 128) : w.out.countP (fun b => decide (b = beatOf d)) ≤ wroteN d w.trace := by
  rw [World.out, List.countP_map, sends, List.countP_filterMap, wroteN]
  refine List.countP_mono_left fun x hx hx' => ?_
  cases hs : sent? x.ev with
  | none => simp [hs] at hx'
  | some s =>
    simp [hs] at hx'
    have hm : meaning s.bytes = some .heartbeat := by rw [hx']; exact (beat_facts hd).1
    rcases said_all hE h hf hp hx hs with h | h
    · exact ((hand_meaning hM h).1 hm).elim
    · have hg := (h.heartbeat hm).1
      obtain ⟨i, g, o, r⟩ := x
      cases o <;> simp only [sent?, reduceCtorEq, Option.some.injEq] at hs
      subst hs
      obtain rfl : g = .beatLoop := hg
      exact decide_eq_true hx'

/-- Answers to heartbeats are not more than heartbeats with these data. -/
theorem out_replies {E : Env} (hE : E.maxStream ≠ 0) {m : Mode} (hM : Meets E m) {w : World} (h : Alone E w) (hf : Fine E w) (hp : Peaceful w)
    {d : Bytes} (hd : d.length = 128) :
    w.out.countP (fun b => decide (ackData b = some d)) ≤ (receives w.trace).countP (fun b => decide (b = beatOf d)) := by
  have h1 : w.out.countP (fun b => decide (ackData b = some d)) ≤ (ownSends w.trace).countP (fun x => decide (x.bytes = replyOf d)) := by
    rw [World.out, List.countP_map, sends, ownSends, sends, List.countP_filterMap, List.countP_filterMap, List.countP_filter]
    refine List.countP_mono_left fun x hx hx' => ?_
    cases hs : sent? x.ev with
    | none => simp [hs] at hx'
    | some s =>
      simp [hs] at hx'
      have hm : meaning s.bytes = some .heartbeatAck := by
        unfold ackData at hx'
        split at hx'
        · assumption
        · cases hx'
      rcases said_all hE h hf hp hx hs with h | h
      · exact ((hand_meaning hM h).2 hm).elim
      · obtain ⟨hg, d', hd', h⟩ := h.ack hm
        rw [h, (reply_facts hd').2.1] at hx'
        cases hx'
        simp [hg, h]
  refine Nat.le_trans h1 (Nat.le_trans (echoes_bound rfl h.reachable) (List.countP_mono_left fun b hb hb' => ?_))
  simp only [decide_eq_true_iff] at hb' ⊢
  obtain ⟨d', hd', rfl⟩ := hf.heard b hb hb'.1
  have := hb'.2
  rw [(beat_facts hd').2.1] at this
  have h2 := (reply_facts hd').2.1
  rw [Option.some.inj this, (reply_facts hd).2.1] at h2
  cases h2
  rfl

/-! ### Two ends -/

/-- What is received is, at its place, a message of the handshake, or something sent after it. -/
theorem place {H l rs rest out : List Bytes} {k : Nat} (hl : out = H.take k ++ l) (hH : H.length = 2) (h2 : l ≠ [] → 2 ≤ k)
    (hperm : (rs ++ rest).Perm out) (ho : rs.take 2 <+: out) {i : Nat} {raw : Bytes} (hi : rs[i]? = some raw) :
    H[i]? = some raw ∨ 2 ≤ i ∧ raw ∈ l := by
  obtain ⟨out', ho'⟩ := ho
  by_cases hi2 : i < 2
  · have h1 : out[i]? = some raw := by
      rw [← ho', List.getElem?_append_left (by
        have := (List.getElem?_eq_some_iff.mp hi).1
        rw [List.length_take]; omega), List.getElem?_take, if_pos hi2]
      exact hi
    rw [hl] at h1
    by_cases hk' : i < (H.take k).length
    · rw [List.getElem?_append_left hk', List.getElem?_take] at h1
      split at h1
      · exact .inl h1
      · cases h1
    · rw [List.getElem?_append_right (by omega)] at h1
      have := h2 (by rintro rfl; simp at h1)
      rw [List.length_take, hH] at hk'
      omega
  · refine .inr ⟨by omega, ?_⟩
    have hlen3 : i < rs.length := (List.getElem?_eq_some_iff.mp hi).1
    have hmem' : raw ∈ rs.drop 2 := by
      refine List.mem_of_getElem? (i := i - 2) ?_
      rw [List.getElem?_drop, show 2 + (i - 2) = i by omega]
      exact hi
    rw [← ho', show rs ++ rest = rs.take 2 ++ (rs.drop 2 ++ rest) by
      rw [← List.append_assoc (rs.take 2), List.take_append_drop]] at hperm
    have hout : out.drop 2 = out' := by
      rw [← ho', List.drop_left' (by rw [List.length_take]; omega)]
    have hperm := (List.perm_append_left_iff _).mp hperm
    have hraw : raw ∈ out.drop 2 := by
      rw [hout]
      exact hperm.subset (List.mem_append_left _ hmem')
    have hk2 : 2 ≤ k := by
      by_cases hk2 : 2 ≤ k
      · exact hk2
      have hnil : l = [] := by
        cases l with
        | nil => rfl
        | cons x l => exact absurd (h2 (by simp)) hk2
      rw [hl, hnil, List.append_nil, List.drop_take] at hraw
      rw [show k - 2 = 0 by omega] at hraw
      cases hraw
    rwa [hl, List.take_of_length_le (by rw [hH]; exact hk2), List.drop_left' hH] at hraw

theorem _root_.M3.Spec.Apart.reachable {Ea Eb : Env} {p : Link} (h : Apart Ea Eb p) : Link.Reachable Ea Eb p := by
  induction h with
  | init => exact .refl _
  | step _ hs _ _ ih => exact .tail ih hs

theorem _root_.M3.Spec.Apart.flip {Ea Eb : Env} {p : Link} (h : Apart Ea Eb p) : Apart Eb Ea p.flip := by
  induction h with
  | init => exact .init
  | step _ hs h1 h2 ih => exact .step ih hs.flip h2 h1

theorem _root_.M3.Spec.Apart.alone {Ea Eb : Env} {p : Link} (h : Apart Ea Eb p) : Alone Ea p.a := by
  induction h with
  | init => exact .init
  | step _ hs h1 h2 ih =>
    cases hs with
    | a h => exact .step ih h.1 h1
    | b h => exact ih
    | toB h3 _ => exact ih
    | toA h3 _ => exact .step ih (World.deliver_step _ h3) h1

/-- If one end is fine, what it has sent is what the other end expects. -/
theorem half {Ea Eb : Env} {p : Link} (h : Apart Ea Eb p) (hE : Ea.maxStream ≠ 0) {m : Mode} (hM : Meets Ea m)
    (hf : Fine Ea p.a) (hp : Peaceful p.a) :
    (receives p.b.trace ++ (p.b.sh.inbox ++ p.toB)).Perm p.a.out ∧
    ((receives p.b.trace).take 2 <+: p.a.out → (∀ i raw, (receives p.b.trace)[i]? = some raw → expectedOrAck m i raw) ∧
      (∀ b ∈ receives p.b.trace, meaning b = some .heartbeat → ∃ d, d.length = 128 ∧ b = beatOf d) ∧
      ∀ b ∈ receives p.b.trace, meaning b = some .heartbeatAck → ∃ d, d.length = 128 ∧ b = replyOf d) := by
  have hperm := h.reachable.transit (out_short hE hM h.alone hf hp)
  rw [List.append_assoc] at hperm
  refine ⟨hperm, fun ho => ⟨fun i raw hi => ?_, fun b hb hm => ?_, fun b hb hm => ?_⟩⟩
  · obtain ⟨k, t₁, t₂, ht, a, b, c⟩ := said hE h.alone hf hp
    have hl : p.a.out = (hand Ea).take k ++ (sends t₂).map (·.bytes) := by
      rw [World.out, ht, sends_append, List.map_append, a]
    rcases place hl (hand_length Ea) (fun hn => b (by intro h; rw [h] at hn; exact hn rfl)) hperm ho hi with h | ⟨h1, h2⟩
    · exact .inl (hM.expected i raw h)
    · obtain ⟨s, hs, rfl⟩ := List.mem_map.mp h2
      obtain ⟨x, hx, hxs⟩ := List.mem_filterMap.mp hs
      exact (c x hx s hxs).expected m h1
  · rcases out_said hE h.alone hf hp (hperm.subset (List.mem_append_left _ hb)) with h | ⟨x, h⟩
    · exact ((hand_meaning hM h).1 hm).elim
    · exact (h.heartbeat hm).2
  · rcases out_said hE h.alone hf hp (hperm.subset (List.mem_append_left _ hb)) with h | ⟨x, h⟩
    · exact ((hand_meaning hM h).2 hm).elim
    · exact (h.ack hm).2

/-- A step reads at most one datagram, as its last entry. -/
theorem read_last {E : Env} {w w' : World} (h : Conn.Step E w w') {l₁ l₂ : List Rec} {x : Rec} {n : Nat} {raw : Bytes}
    (hl : w'.trace = l₁ ++ x :: l₂) (hx : x.ev = ⟨.read n, some raw⟩) :
    (∃ l, w.trace = l₁ ++ x :: l) ∨ (l₁ = w.trace ∧ w'.trace = w.trace ++ [x]) := by
  have cut : ∀ {t m : List Rec}, t ++ m = l₁ ++ x :: l₂ → (∃ l, t = l₁ ++ x :: l) ∨ ∃ l, m = l ++ x :: l₂ ∧ l₁ = t ++ l := by
    intro t m h
    rcases List.append_eq_append_iff.mp h with ⟨u, h1, h2⟩ | ⟨u, h1, h2⟩
    · exact .inr ⟨u, h2, h1⟩
    · cases u with
      | nil => exact .inr ⟨[], by simpa using h2.symm, by simpa using h1.symm⟩
      | cons y u =>
        simp only [List.cons_append, List.cons.injEq] at h2
        exact .inl ⟨u, by rw [h1, h2.1]⟩
  cases h with
  | run i g hist o k r _ ht hexec =>
    rcases cut hl with h | ⟨l, h1, h2⟩
    · exact .inl h
    · cases l with
      | nil =>
        simp only [List.nil_append, List.cons.injEq] at h1
        exact .inr ⟨by simpa using h2, by rw [← h1.1]⟩
      | cons y l => simp at h1
  | sync i j gi gj hi hj oi oj ki kj ri rj _ _ _ _ hs =>
    rcases cut hl with h | ⟨l, h1, -⟩
    · exact .inl h
    · have hm : x ∈ ([⟨i, gi, oi, ri⟩, ⟨j, gj, oj, rj⟩] : List Rec) := by rw [h1]; exact List.mem_append_right _ (by simp)
      rcases List.mem_cons.mp hm with rfl | hm
      · cases hs <;> cases hx
      · rw [List.mem_singleton.mp hm] at hx
        cases hs <;> cases hx
  | env _ _ => exact .inl ⟨l₂, hl⟩
  | call c _ _ => exact .inl ⟨l₂, hl⟩
  | loop _ _ _ _ _ _ => exact .inl ⟨l₂, hl⟩
  | crash _ _ _ _ _ _ _ _ => exact .inl ⟨l₂, hl⟩

/-- Answers that have come are not more than the heartbeats they answer. -/
theorem ack_count {Ea Eb : Env} {p : Link} (h : Apart Ea Eb p) (hE : Eb.maxStream ≠ 0) {m : Mode} (hM : Meets Eb m) (hf : Fine Eb p.b)
    (hp : Peaceful p.b) (hs : ∀ b ∈ p.a.out, b.length ≤ 1500) {d : Bytes} (hd : d.length = 128) :
    acked d p.a.trace ≤ p.a.out.countP (fun b => decide (b = beatOf d)) := by
  have h1 := (half h.flip hE hM hf hp).1.countP_eq (fun b => decide (ackData b = some d))
  have h2 := h.reachable.transit hs
  rw [List.append_assoc] at h2
  have h2 := h2.countP_eq (fun b => decide (b = beatOf d))
  have h3 := out_replies hE hM h.flip.alone hf hp hd
  rw [List.countP_append] at h1 h2
  have e : acked d p.a.trace = (receives p.flip.b.trace).countP (fun b => decide (ackData b = some d)) := rfl
  have e1 : p.flip.a.out = p.b.out := rfl
  have e2 : p.flip.a.trace = p.b.trace := rfl
  rw [e1] at h1 h3
  rw [e2] at h3
  rw [e]
  omega

/-- The one end goes a step. -/
theorem advance {Ea Eb : Env} {p q : Link} (hp : Apart Ea Eb p) (hq : Apart Ea Eb q) (hb : q.b = p.b) (hst : Conn.Step Ea p.a q.a)
    (hEa : Ea.maxStream ≠ 0) (hEb : Eb.maxStream ≠ 0) (hMa : Meets Ea Eb.mode) (hMb : Meets Eb Ea.mode)
    (hfa : Fine Ea p.a) (hfb : Fine Eb p.b) (hpa : Peaceful q.a) (hpb : Peaceful q.b) (hu : Unhurried q.a.trace)
    {B : List Bytes} (hB : q.b.out <+: B) (ho : (receives q.a.trace).take 2 <+: B) : Fine Ea q.a := by
  have hfb' : Fine Eb q.b := by rw [hb]; exact hfb
  have hpa0 := Peaceful.before hst hpa
  obtain ⟨h1, h2⟩ := half hq.flip hEb hMb hfb' hpb
  have := h1.length_eq
  simp only [List.length_append] at this
  obtain ⟨e1, e2, e3⟩ := h2 (List.prefix_of_prefix_length_le ho hB (by
    rw [List.length_take]
    have : (receives q.flip.b.trace).length = (receives q.a.trace).length := rfl
    have : q.flip.a.out.length = q.b.out.length := rfl
    omega))
  refine ⟨⟨hpa.ctx, e1, ?_, hpa.user, hpa.calm⟩, e2⟩
  intro l₁ x l₂ n raw hl hx hm
  rcases read_last hst hl hx with ⟨l, hl'⟩ | ⟨rfl, hq'⟩
  · exact hfa.att.acks l₁ x l n raw hl' hx hm
  · have hr : receives q.a.trace = receives p.a.trace ++ [raw] := by
      rw [hq', Flow.receives_append]
      congr 1
      simp [receives, hx, received?]
    have hout : q.a.out = p.a.out := by
      rw [World.out, World.out, hq', sends_append, show sends [x] = [] by simp [sends, hx, sent?], List.append_nil]
    obtain ⟨d, hd, hraw⟩ := e3 raw (by show raw ∈ receives q.a.trace; rw [hr]; simp) hm
    have hposted := hu _ x l₂ n raw hl hx hm
    have hev := (sent hEa hp.alone hfa.att).2.1 hposted d hd
    have hcount := ack_count hq hEb hMb hfb' hpb (by rw [hout]; exact out_short hEa hMa hp.alone hfa hpa0) hd
    have hb := out_beats hEa hMa hp.alone hfa hpa0 hd
    rw [hout] at hcount
    have hone : acked d q.a.trace = acked d p.a.trace + 1 := by
      unfold acked
      rw [hr, List.countP_append, hraw]
      simp [(reply_facts hd).2.1]
    have hopen : open1 d p.a.trace ≠ 0 := by omega
    unfold open1 at hopen
    split at hopen
    · rename_i h; exact ⟨h.1, d, h.2, by rw [hraw]; exact (reply_facts hd).2.1⟩
    · exact (hopen rfl).elim

theorem Unhurried.before {E : Env} {w w' : World} (h : Conn.Step E w w') (hu : Unhurried w'.trace) : Unhurried w.trace := by
  obtain ⟨l, hl⟩ := h.trace
  intro l₁ x l₂ n raw e
  exact hu l₁ x (l₂ ++ l) n raw (by rw [hl, e]; simp)

theorem Fine.same {E : Env} {w w' : World} (h : Fine E w) (ht : w'.trace = w.trace) (hc : w'.sh.ctxDone = w.sh.ctxDone) : Fine E w' :=
  ⟨⟨by rw [hc]; exact h.att.ctx, by rw [ht]; exact h.att.peer, by rw [ht]; exact h.att.acks, by rw [ht]; exact h.att.user,
    by rw [ht]; exact h.att.calm⟩, by rw [ht]; exact h.heard⟩

/-- Two endpoints that only disturb each other do not. -/
theorem both {Ea Eb : Env} (hEa : Ea.maxStream ≠ 0) (hEb : Eb.maxStream ≠ 0) (hMa : Meets Ea Eb.mode) (hMb : Meets Eb Ea.mode)
    {p : Link} (h : Apart Ea Eb p) (ha : Peaceful p.a) (hb : Peaceful p.b) (hua : Unhurried p.a.trace) (hub : Unhurried p.b.trace)
    (ho : InOrder p) : Fine Ea p.a ∧ Fine Eb p.b := by
  suffices ∀ A B, p.a.out <+: A → p.b.out <+: B → (receives p.b.trace).take 2 <+: A → (receives p.a.trace).take 2 <+: B →
      Fine Ea p.a ∧ Fine Eb p.b from
    this _ _ (List.prefix_refl _) (List.prefix_refl _) ho.1 ho.2
  clear ho
  induction h with
  | init =>
    intro A B _ _ _ _
    have start : ∀ E : Env, Peaceful (Conn.init E) → Fine E (Conn.init E) := fun E h => by
      refine ⟨⟨h.ctx, ?_, ?_, h.user, h.calm⟩, ?_⟩
      · intro i raw hi; cases hi
      · intro l₁ x l₂ n raw hl
        have : ([] : List Rec).length = (l₁ ++ x :: l₂).length := congrArg List.length hl
        simp at this
      · intro b hb; exact (List.not_mem_nil hb).elim
    exact ⟨start Ea ha, start Eb hb⟩
  | @step p q hp hstep e1 e2 ih =>
    intro A B hA hB hoA hoB
    have hq := Apart.step hp hstep e1 e2
    cases hstep with
    | @a a' h1 =>
      obtain ⟨g1, g2⟩ := growth h1.1
      have ih := ih (Peaceful.before h1.1 ha) hb (Unhurried.before h1.1 hua) hub A B (g1.trans hA) hB hoA (take_prefix hoB g2)
      exact ⟨advance hp hq rfl h1.1 hEa hEb hMa hMb ih.1 ih.2 ha hb hua hB hoB, ih.2⟩
    | @b b' h1 =>
      obtain ⟨g1, g2⟩ := growth h1.1
      have ih := ih ha (Peaceful.before h1.1 hb) hua (Unhurried.before h1.1 hub) A B hA (g1.trans hB) (take_prefix hoA g2) hoB
      exact ⟨ih.1, advance hp.flip hq.flip rfl h1.1 hEb hEa hMb hMa ih.2 ih.1 hb ha hub hA hoA⟩
    | toB h1 h2 =>
      have ih := ih ha ⟨hb.1, hb.2, hb.3, hb.4⟩ hua hub A B hA hB hoA hoB
      exact ⟨ih.1, ih.2.same rfl rfl⟩
    | toA h1 h2 =>
      have ih := ih ⟨ha.1, ha.2, ha.3, ha.4⟩ hb hua hub A B hA hB hoA hoB
      exact ⟨ih.1.same rfl rfl, ih.2⟩

end M3.Conn.Pulse
