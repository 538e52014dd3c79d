import Verif.Props.Conn.Order
import Verif.Props.Conn.Delivery

/- How much room `Read` needs: C111. -/

set_option autoImplicit false
set_option linter.unusedSimpArgs false

namespace M3.Conn

open Spec

namespace Room

theorem member {b : Bytes} {qs : List (Nat × Bytes)} (h : ParamSeq b qs) : ∀ q ∈ qs, 4 + q.2.length ≤ b.length := by
  induction h with
  | nil => exact fun q hq => (nomatch hq)
  | cut tag value filler h1 h2 h3 =>
    intro q hq
    rw [List.mem_singleton.mp hq]
    simp [be16]
    omega
  | cons tag value filler rest ps h1 h2 h3 _ ih =>
    intro q hq
    rcases List.mem_cons.mp hq with rfl | hq
    · simp [be16]
      omega
    · have := ih q hq
      simp only [List.length_append]
      omega

/-- A payload needs 24 bytes besides its data. -/
theorem overhead {raw : Bytes} {pd : ProtocolDataPayload} (h : carries raw pd) : 24 + pd.data.length ≤ raw.length := by
  obtain ⟨m, p, h1, -, -, h2, h3⟩ := carries_data h
  have hv := payloadOf_value h3
  obtain ⟨h8, -⟩ := parse_kind raw _ h1
  have hseq : ∃ qs, ParamSeq (raw.drop 8) qs := by
    by_cases hq : ∃ qs, ParamSeq (raw.drop 8) qs
    · exact hq
    · obtain ⟨e, he⟩ := c23_bad_body _ (fun qs h => hq ⟨qs, h⟩)
      rw [he] at h1; cases h1
  obtain ⟨qs, hq⟩ := hseq
  rcases c24_parse raw h8 .data ((c21_all raw _ h1 .data).mp rfl) qs hq with ⟨-, m', hm, -, -, hf⟩ | ⟨-, e, he, -⟩
  · rw [h1] at hm
    cases hm
    have := hf .protocolData (by decide)
    rw [lastValue] at this
    cases hl : (qs.filter fun x => x.1 = PName.protocolData.tag).getLast? with
    | none =>
      rw [hl] at this
      simp only [Option.map_none, M3UA.field] at this
      have : m.protocolData = none := this
      rw [h2] at this
      cases this
    | some q =>
      rw [hl] at this
      simp only [Option.map_some] at this
      obtain ⟨p', g1, -, g2, -⟩ := this
      have g1 : m.protocolData = some p' := g1
      rw [h2] at g1
      cases g1
      have hm := member hq q (List.mem_filter.mp (List.mem_of_getLast? hl)).1
      rw [← g2, hv, valueOf_length, List.length_drop] at hm
      omega
  · rw [h1] at he
    cases he

end Room

open Room in
/-- C111: no payload that is queued, or was taken from the queue, has more than 1476 bytes of data, whatever the peer sends. -/
theorem c111_payload {E : Env} {w : World} (h : Reachable E w) {pd : ProtocolDataPayload} (hp : some pd ∈ takes w.trace ∨ pd ∈ w.sh.dataQ) :
    pd.data.length ≤ 1476 := by
  classical
  have hb := c50_taken h (· = pd)
  have hpos : 0 < (receives w.trace).countP (fun raw => ∃ pd', carries raw pd' ∧ pd' = pd) := by
    refine Nat.lt_of_lt_of_le ?_ hb
    rcases hp with hp | hp
    · exact Nat.lt_of_lt_of_le (List.countP_pos_iff.mpr ⟨_, hp, by simp⟩) (Nat.le_add_right _ _)
    · exact Nat.lt_of_lt_of_le (List.countP_pos_iff.mpr ⟨_, hp, by simp⟩) (Nat.le_add_left _ _)
  obtain ⟨raw, hr, hc⟩ := List.countP_pos_iff.mp hpos
  simp only [decide_eq_true_iff] at hc
  obtain ⟨_, hc, rfl⟩ := hc
  have := overhead hc
  have := c64_at_most h hr
  omega

/-- C111: so `Read` with a buffer of 1476 bytes or more copies all of what it reports, and `buf[:n]` is within the buffer. -/
theorem c111_read {E : Env} {w : World} (h : Reachable E w) {i : Nat} {t : Thread} (ht : w.threads[i]? = some t) {size : Nat} (hs : 1476 ≤ size)
    (hc : t.gor = .api (.read size)) {res : ApiRes} (hm : res ∈ returns (w.of i)) :
    (∃ pd, takes (w.of i) = [some pd] ∧ res = .data pd.data.length pd.data ∧ pd.data.length ≤ 1476) ∨ res = .fail .notEstablished := by
  obtain ⟨⟨st, -, -, -, hr⟩ | ⟨-, x, hx, hr⟩, -⟩ := c42_read h ht hc hm
  · exact .inr hr
  · cases x with
    | none => exact .inr hr
    | some pd =>
      have hl := c111_payload h (pd := pd) (.inl (by
        have : some pd ∈ takes (w.of i) := by rw [hx]; exact List.mem_singleton_self _
        obtain ⟨y, hy, hy'⟩ := List.mem_filterMap.mp this
        exact List.mem_filterMap.mpr ⟨y, (List.mem_filter.mp hy).1, hy'⟩))
      refine .inl ⟨pd, hx, ?_, hl⟩
      rw [hr]
      show ApiRes.data _ (pd.data.take size) = _
      rw [List.take_of_length_le (by omega)]

/-- For `c111_read`: the peer sends DATA with the payload `[7, 8, 9]`, the user calls `Read` with a buffer of 1500 bytes. -/
example : ∃ w t, Reachable E₀ w ∧ w.threads[7]? = some t ∧ t.gor = .api (.read 1500) ∧ returns (w.of 7) = [.data 3 [7, 8, 9]] := by
  obtain ⟨w, h1, h2⟩ := reach_of (E := E₀) (cs := opening .client ++ [.deliver [1, 0, 1, 1, 0, 0, 0, 28, 2, 16, 0, 19, 0, 0, 0, 1, 0, 0, 0, 2,
      3, 4, 5, 6, 7, 8, 9, 0]] ++ go 2 2 ++ [.loop 2] ++ go 5 2 ++ go 6 2 ++ [.call (.read 1500)] ++ go 7 3)
    (f := fun w => (w.threads[7]?.map Thread.gor, returns (w.of 7))) (v := (some (.api (.read 1500)), [.data 3 [7, 8, 9]])) (by kernel_rfl)
  simp only [Prod.mk.injEq, Option.map_eq_some_iff] at h2
  obtain ⟨⟨t, h3, h4⟩, h5⟩ := h2
  exact ⟨w, t, h1, h3, h4, h5⟩

/-- C111: and no smaller size will do: every connection can get a payload of 1476 bytes. -/
theorem c111_attained (E : Env) : ∃ w pd, Reachable E w ∧ pd.data.length = 1476 ∧ returns w.trace = [.pd pd] := by
  let c := Config.new 1 2 3 0 0 0
  let b : Bytes := List.replicate 1476 7
  have hd : DataConfig c := ⟨nofun, nofun, nofun⟩
  obtain ⟨w, h1, -, h2⟩ := c51_any E [(dataOf c b, payloadFor c b)]
    (fun d hd' => by rw [List.mem_singleton.mp hd']; exact ⟨(c43_understood hd (by decide +kernel)).2, by decide +kernel⟩)
    [payloadFor c b] (List.Perm.refl _)
  exact ⟨w, payloadFor c b, h1, List.length_replicate, h2⟩

end M3.Conn
