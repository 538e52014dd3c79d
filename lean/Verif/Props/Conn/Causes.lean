import Verif.Props.Conn.Flow
import Verif.Lemmas.Conn.Hist
import Verif.Spec.Handling

/- Why errors are reported: C67. -/

set_option autoImplicit false
set_option linter.unusedSimpArgs false

namespace M3.Spec

open M3.Conn

/-- Why an error may be reported: what was received before (`rs`), and what the goroutine did last (`last`). -/
def Because (rs : List (List UInt8)) (last : Option Ev) : CErr → Prop
  | .invalidVersion v => ∃ raw ∈ rs, (∃ m, M3UA.parse raw = .ok m) ∧ raw.getD 0 0 = v ∧ v ≠ 1
  | .unsupportedMessage m => ∃ raw ∈ rs, M3UA.parse raw = .ok m ∧ raw.getD 0 0 = 1 ∧ ∀ k, m.kind = some k → handled k = false
  | .unexpectedMessage m => ∃ raw ∈ rs, M3UA.parse raw = .ok m ∧ raw.getD 0 0 = 1 ∧ ∃ k, m.kind = some k ∧ handled k = true ∧
      k ≠ .error ∧ k ≠ .notify
  | .failedToPeelOff => ∃ raw ∈ rs, ∃ m p, M3UA.parse raw = .ok (.data m) ∧ raw.getD 0 0 = 1 ∧ m.protocolData = some p ∧
      p.data.length < 12
  | .sctp | .failedToWriteSignal => ∃ d i, last = some ⟨.write d i, none⟩
  | .rand => last = some ⟨.rand, none⟩
  | .heartbeatExpired => last = some ⟨.ackSelect, .timer⟩
  | _ => False

end M3.Spec

namespace M3.Conn

open Spec

/-- The same in terms of one goroutine. -/
def Why (g : Gor) (s : List Ev) (o : Op) : Prop :=
  match o with
  | .sendErr e => match g with
    | .packet raw => Because [raw] s.getLast? e
    | .data m => ∀ raw, meaning raw = some .data → M3UA.parse raw = .ok (.data m) → Because [raw] s.getLast? e
    | _ => Because [] s.getLast? e
  | _ => True

theorem payloadOf_none {p : Param} (hp : p.tag = 0x210) (h : payloadOf p = none) : p.data.length < 12 := by
  rcases c13_parse p.data with ⟨h1, -⟩ | ⟨-, q, h1, h2⟩
  · exact h1
  · rw [(payloadOf_iff hp (pd := q)).mpr (by rw [valueOf_eq, h2])] at h; cases h

theorem meaning_version {raw : Bytes} {k : Kind} (h : meaning raw = some k) : raw.getD 0 0 = 1 := by
  unfold meaning at h
  split at h
  · split at h
    · assumption
    · cases h
  · cases h

theorem why (E : Env) (g : Gor) : WP (Hist (Why g)) g (fun _ _ => True) [] (body E g) := by
  cases g with
  | monitorLoop =>
    obtain ⟨mode, cfg, hb, ms⟩ := E
    cases mode <;> wp_code [Hist.ok_eq, Hist.may_eq, Hist.next_eq, Why] <;> simp
  | packet raw =>
    rw [body, packet_eq]
    cases hp : M3UA.parse raw with
    | ok m =>
      have hv := (M3UA.parse_octets hp).1
      cases m <;> wp_code [Hist.ok_eq, Hist.may_eq, Hist.next_eq, Facts.may, Why, Because, List.nil_append, List.append_assoc,
          List.cons_append] <;>
        simp +contextual [hp, hv, M3UA.kind, handled, sigInfo_std, -List.getD_eq_getElem?_getD] <;>
        (intro _ r h1; cases r <;> simp_all [St.asp])
    | _ => wp_code [] <;> simp
  | data m =>
    wp_code [Hist.ok_eq, Hist.may_eq, Hist.next_eq, Facts.may, Why, Because]
    simp only [List.mem_singleton, exists_eq_left, M3UA.kind, Option.some.injEq, handled, true_and]
    refine fun s _ => ⟨fun _ raw h1 h2 => ?_, fun _ p hp hn raw h1 h2 => ?_⟩
    · exact ⟨h2, meaning_version h1, .data, rfl, rfl, by simp, by simp⟩
    · exact ⟨m, p, h2, meaning_version h1, hp, payloadOf_none (parsed_pd h2 hp) hn⟩
  | api c => cases c <;> wp_code [Hist.ok_eq, Hist.may_eq, Hist.next_eq, Why] <;> simp
  | _ => wp_code [Hist.ok_eq, Hist.may_eq, Hist.next_eq, Why, Because] <;> simp

theorem Because.mono {rs rs' : List Bytes} (h : ∀ raw ∈ rs, raw ∈ rs') {last : Option Ev} {e : CErr} (hb : Because rs last e) :
    Because rs' last e := by
  cases e <;> simp only [Because] at hb ⊢ <;>
    first
    | exact hb
    | (obtain ⟨raw, h1, h2⟩ := hb; exact ⟨raw, h raw h1, h2⟩)

/-- C67: whenever an error is reported to the monitor there is a reason for it: a received datagram, or what the reporting
goroutine did last. In particular no other error (unsupported class, invalid stream, missing ASP identifier) is ever reported, so
the codes 3, 9 and 14 are never sent. -/
theorem c67_because {E : Env} {w : World} (h : Reachable E w) {l₁ l₂ : List Rec} {x : Rec} (hl : w.trace = l₁ ++ x :: l₂)
    {e : CErr} (hx : complaint? x.ev = some e) :
    Because (receives l₁) ((l₁.filter (·.tid == x.tid)).getLast?.map Rec.ev) e := by
  have hof : w.of x.tid = l₁.filter (·.tid == x.tid) ++ x :: l₂.filter (·.tid == x.tid) := by
    rw [World.of, hl, List.filter_append, List.filter_cons_of_pos (by simp)]
  obtain ⟨pre, h₁, hpre, hP⟩ := Hist.iter h hof (why E x.gor)
  have hx' : x.ev.op = .sendErr e := by
    obtain ⟨i, g, o, r⟩ := x
    cases o <;> simp only [complaint?, reduceCtorEq, Option.some.injEq] at hx
    rw [hx]
  rw [hx'] at hP
  have hsrc := Flow.source h hl
  have hB : Because (receives l₁) h₁.getLast? e := by
    obtain ⟨i, g, o, r⟩ := x
    cases g with
    | packet raw => exact Because.mono (by simpa [Flow.Src, Flow.key] using hsrc) hP
    | data m =>
      obtain ⟨raw, h1, h2, h3⟩ := hsrc
      exact Because.mono (by simpa using h1) (hP raw h2 h3)
    | _ => exact Because.mono (by simp) hP
  rw [hpre]
  cases hh : h₁.getLast? with
  | none => 
    rw [hh] at hB
    cases e <;> simp only [Because, reduceCtorEq, exists_false] at hB ⊢ <;> exact hB
  | some y =>
    rw [hh] at hB
    have : (pre ++ h₁.map fun e => (⟨x.tid, x.gor, e⟩ : Rec)).getLast? = some ⟨x.tid, x.gor, y⟩ := by
      rw [List.getLast?_append, List.getLast?_map, hh]; rfl
    rw [this]
    exact hB

/-- C67: an SSNM message, or one of a class or type that is not known, is reported as unsupported (once, unless the context is
done); then the state is reported as it is. Nothing else is done about it. -/
theorem c67_unsupported {E : Env} {w : World} (h : Reachable E w) {i : Nat} {t : Thread} (ht : w.threads[i]? = some t)
    {raw : Bytes} (hc : t.gor = .packet raw) {m : M3UA} (hp : M3UA.parse raw = .ok m) (hv : raw.getD 0 0 = 1)
    (hk : ∀ k, m.kind = some k → handled k = false) :
    (∃ s, (w.of i).map Rec.ev <+: [⟨.ctxDone, false⟩, ⟨.sendErr (.unsupportedMessage m), ()⟩, ⟨.state, s⟩, ⟨.sendState s, ()⟩]) ∨
      (w.of i).map Rec.ev = [⟨.ctxDone, true⟩] := by
  obtain ⟨h1, h2⟩ := Follows.once h ht hc rfl
  have h3 : (w.of i).map Rec.ev = t.hist := by rw [h2, List.map_map]; exact List.map_id _
  rw [h3]
  rw [body, packet_eq] at h1
  simp only [hp] at h1
  have hv : m.version = 1 := by rw [← hv]; exact ((M3UA.parse_octets hp).1).symm
  have h1 : Path (.op .ctxDone _) t.hist t.prog := h1
  rcases Path.op_iff.mp h1 with ⟨h1, -⟩ | ⟨r, h', h1, h4⟩
  · rw [h1]; exact .inl ⟨.down, List.nil_prefix⟩
  rw [h1]
  cases r with
  | true =>
    have h4 : Path (.ret none) h' t.prog := h4
    rw [(Path.ret_iff.mp h4).1]; exact .inr rfl
  | false =>
    left
    simp only [hv] at h4
    have h4 : Path (.op (.sendErr (.unsupportedMessage m)) fun _ => .op .state fun s => .op (.sendState s) fun _ => .ret none)
        h' t.prog := by
      cases m <;> first | exact h4 | (have := hk _ rfl; simp [handled] at this)
    rcases Path.op_iff.mp h4 with ⟨h4, -⟩ | ⟨_, h₂, e₂, h5⟩
    · rw [h4]; exact ⟨.down, _, rfl⟩
    rcases Path.op_iff.mp h5 with ⟨h5, -⟩ | ⟨s, h₃, e₃, h6⟩
    · rw [e₂, h5]; exact ⟨.down, _, rfl⟩
    refine ⟨s, ?_⟩
    rw [e₂, e₃]
    rcases Path.op_iff.mp h6 with ⟨h6, -⟩ | ⟨_, h₄, e₄, h7⟩
    · rw [h6]; exact ⟨_, rfl⟩
    rw [e₄, (Path.ret_iff.mp h7).1]; exact List.prefix_refl _

/-- For `c67_because` and `c67_unsupported`: a DATA message whose Protocol Data parameter is too short, and a message of a class that is not known. -/
example : ∃ w, Reachable E₀ w ∧ (receives (w.trace.drop 21), complaints (w.trace.drop 21)) =
    ([message 1 1 1 [tlv 0x210 [1, 2]], message 1 9 1 []],
      [.unsupportedMessage (.generic ⟨⟨1, 0, 9, 1, 8, []⟩, []⟩), .failedToPeelOff]) :=
  reach_of (cs := opening .client ++ [.deliver (message 1 1 1 [tlv 0x210 [1, 2]]), .deliver (message 1 9 1 [])] ++ go 2 2 ++ [.loop 2] ++ go 5 3 ++
    [.sync 5 2] ++ go 2 6 ++ [.loop 2] ++ go 7 1 ++ [.sync 7 2] ++ go 2 2 ++ [.loop 2] ++ go 6 1 ++ [.sync 6 2]) (by kernel_rfl)

end M3.Conn
