import Verif.Props.Conn.Final
import Verif.Props.Conn.Calls
import Verif.Props.Conn.Closing
import Verif.Props.Conn.Delivery
import Verif.Lemmas.Conn.CalmRun

/- Calls made one after the other: C117. -/

set_option autoImplicit false
set_option linter.unusedSimpArgs false

namespace M3.Spec

open Conn

/-- The methods that read a payload. -/
def readCall : Api → Bool
  | .read _ | .readPD => true
  | _ => false

/-- The datagram that a method which writes a payload hands to SCTP, if any, in a connection with the configuration `cfg`. -/
def datagram? (cfg : Config) : Api → Option (List UInt8)
  | .write b | .writeToStream b _ => some (dataOf cfg b)
  | .writePD pd | .writePDToStream pd _ => some (dataWith cfg (tv pd))
  | _ => none

/-- The methods that write a payload. -/
def writeCall : Api → Bool
  | .write _ | .writeToStream .. | .writePD _ | .writePDToStream .. => true
  | _ => false

/-- What a method that reads returns for the payload `pd`. -/
def resultOf : Api → ProtocolDataPayload → ApiRes
  | .read n, pd => .data pd.data.length (pd.data.take n)
  | _, pd => .pd pd

/-- The goroutine is inside a method chosen by `p`. -/
def picks (p : Api → Bool) : Gor → Bool
  | .api c => p c
  | _ => false

/-- The calls chosen by `p`, in the order in which they were made. -/
def callsOf (p : Api → Bool) (w : World) : List Api :=
  w.threads.filterMap fun t => match t.gor with
    | .api c => if p c then some c else none
    | _ => none

/-- What the calls chosen by `p` have done. -/
def doneBy (p : Api → Bool) (w : World) : List Rec := w.trace.filter fun x => picks p x.gor

/-- The executions in which the methods chosen by `p` are called one after the other: such a call is made only when all earlier ones have returned. (Other
methods may be called at any time.) -/
inductive OneByOne (E : Env) (p : Api → Bool) : World → Prop where
  | init : OneByOne E p (Conn.init E)
  | step {w w' : World} : OneByOne E p w → Step E w w' →
      (∀ c, p c = true → w'.threads = w.threads ++ [Thread.fresh E (.api c)] →
        ∀ i t, w.threads[i]? = some t → picks p t.gor = true → returns (w.of i) ≠ []) → OneByOne E p w'

/-- None of the calls chosen by `p` is under way. -/
def Between (p : Api → Bool) (w : World) : Prop :=
  ∀ i t, w.threads[i]? = some t → picks p t.gor = true → returns (w.of i) ≠ []

end M3.Spec

namespace M3.Conn

open Spec

namespace OneByOne

theorem reach {E : Env} {p : Api → Bool} {w : World} (h : Spec.OneByOne E p w) : Reachable E w := by
  induction h with
  | init => exact .refl _
  | step _ hs _ ih => exact .tail ih hs

/-- The calls of the user are made by the user and stay what they are. -/
theorem users {E : Env} {w w' : World} (hr : Reachable E w) (hs : Step E w w') {i : Nat} {t' : Thread} {c : Api} (ht : w'.threads[i]? = some t')
    (hc : t'.gor = .api c) :
    (∃ t, w.threads[i]? = some t ∧ t.gor = .api c) ∨ (i = w.threads.length ∧ w'.threads = w.threads ++ [Thread.fresh E (.api c)]) := by
  have hf := (Follows.reach hr).2
  have keep : ∀ {ts : List Thread} {k : Nat} (a b : Thread), ts[k]? = some a → (ts.set k b)[i]? = some t' → b.gor = a.gor →
      ∃ t, ts[i]? = some t ∧ t.gor = .api c := by
    intro ts k a b h1 h3 h2
    by_cases hk : k = i
    · subst hk
      rw [List.getElem?_set_self (List.getElem?_eq_some_iff.mp h1).1] at h3
      cases h3
      exact ⟨a, h1, h2 ▸ hc⟩
    · rw [List.getElem?_set_ne hk] at h3
      exact ⟨t', h3, hc⟩
  cases hs with
  | env => exact .inl ⟨t', ht, hc⟩
  | call d =>
    by_cases hi : i < w.threads.length
    · rw [List.getElem?_append_left hi] at ht
      exact .inl ⟨t', ht, hc⟩
    · rw [List.getElem?_append_right (by omega)] at ht
      have h0 : i - w.threads.length = 0 := by
        have := (List.getElem?_eq_some_iff.mp ht).1
        simp at this
        omega
      rw [h0] at ht
      cases ht
      cases hc
      exact .inr ⟨by omega, rfl⟩
  | run k g e o kk r _ hk hx =>
    by_cases hi : i < w.threads.length
    · simp only at ht
      rw [List.getElem?_append_left (by simpa using hi)] at ht
      exact .inl (keep _ _ hk ht rfl)
    · simp only at ht
      rw [List.getElem?_append_right (by simp; omega)] at ht
      have hp := Run.pending hr hk
      have hm := List.mem_of_getElem? ht
      obtain ⟨g', hg, rfl⟩ := List.mem_map.mp hm
      cases o <;> simp only [spawned, List.not_mem_nil, List.mem_singleton] at hg
      subst hg
      have := hp.1
      have hc : g' = .api c := hc
      rw [hc] at this
      cases this
  | sync a b ga gb ea eb oa ob ka kb ra rb _ hab hta htb hx =>
    simp only at ht
    obtain ⟨t, h1, h2⟩ := keep ⟨gb, eb, .op ob kb⟩ _ (by rw [List.getElem?_set_ne hab]; exact htb) ht rfl
    by_cases hk : a = i
    · subst hk
      rw [List.getElem?_set_self (List.getElem?_eq_some_iff.mp hta).1] at h1
      cases h1
      exact .inl ⟨_, hta, h2⟩
    · rw [List.getElem?_set_ne hk] at h1
      exact .inl ⟨t, h1, h2⟩
  | loop k g g' e _ hk =>
    have hu := Fuel.loop_user (hf k _ hk).1
    by_cases hki : k = i
    · subst hki
      rw [List.getElem?_set_self (List.getElem?_eq_some_iff.mp hk).1] at ht
      cases ht
      have hc : g' = .api c := hc
      rw [hc] at hu
      cases hu.2
    · rw [List.getElem?_set_ne hki] at ht
      exact .inl ⟨t', ht, hc⟩
  | crash => exact .inl ⟨t', ht, hc⟩

theorem back {E : Env} {w₁ w : World} (h : Reachable E w₁) (hs : Steps E w₁ w) {i : Nat} {t : Thread} {c : Api} (ht : w.threads[i]? = some t)
    (hc : t.gor = .api c) (hi : i < w₁.threads.length) : ∃ t₁, w₁.threads[i]? = some t₁ ∧ t₁.gor = .api c := by
  induction hs generalizing t with
  | refl => exact ⟨t, ht, hc⟩
  | @tail a b hs hst ih =>
    rcases users (Steps.trans h hs) hst ht hc with ⟨t₀, h1, h2⟩ | ⟨h1, -⟩
    · exact ih h1 h2
    · have : w₁.threads.length ≤ a.threads.length := by
        clear ih h1 ht hst
        induction hs with
        | refl => exact Nat.le_refl _
        | tail _ hst ih => exact Nat.le_trans ih (by cases hst <;> first | exact Nat.le_refl _ | (simp; done) | (simp; omega))
      omega

/-- When a call was made, all the earlier ones of its kind had returned. -/
theorem made {E : Env} {p : Api → Bool} {w : World} (h : Spec.OneByOne E p w) {j : Nat} {t : Thread} (ht : w.threads[j]? = some t)
    (hp : picks p t.gor = true) :
    ∃ w₁, Reachable E w₁ ∧ Steps E w₁ w ∧ w₁.threads.length = j ∧ Between p w₁ := by
  induction h generalizing t with
  | init =>
    have hm := List.mem_of_getElem? ht
    simp only [M3.Conn.init, List.mem_cons, List.not_mem_nil, or_false] at hm
    rcases hm with rfl | rfl | rfl <;> cases hp
  | @step w w' h hs ho ih =>
    cases hg : t.gor with
    | api c =>
      have hp' : p c = true := by rw [hg] at hp; exact hp
      rcases users (reach h) hs ht hg with ⟨t₀, h1, h2⟩ | ⟨h1, h2⟩
      · obtain ⟨w₁, a1, a2, a3⟩ := ih h1 (by rw [h2]; exact hp')
        exact ⟨w₁, a1, .tail a2 hs, a3⟩
      · exact ⟨w, reach h, Steps.one hs, h1.symm, ho c hp' h2⟩
    | _ => rw [hg] at hp; cases hp

/-- After it has returned, a call does nothing. -/
theorem last (E : Env) (c : Api) : WP (Hist (Hist.Call fun _ _ => True)) (.api c) (fun _ _ => True) [] (body E (.api c)) := by
  cases c <;>
    wp_code [Hist.ok_eq, Hist.may_eq, Hist.next_eq, Hist.Call, Facts.may, List.nil_append, List.append_assoc, List.cons_append, List.filterMap_append,
      List.filterMap_cons, List.filterMap_nil, returned?] <;> simp

theorem ended {E : Env} {w₁ w : World} (h : Reachable E w₁) (hs : Steps E w₁ w) {i : Nat} {t : Thread} (ht : w.threads[i]? = some t) {c : Api}
    (hc : t.gor = .api c) (hr : returns (w₁.of i) ≠ []) {l : List Rec} (hl : w.trace = w₁.trace ++ l) : ∀ x ∈ l, x.tid ≠ i := by
  intro x hx he
  have hof : w.of i = w₁.of i ++ l.filter (fun x => x.tid == i) := by rw [World.of, hl, List.filter_append]; rfl
  obtain ⟨a, b, hab⟩ := List.append_of_mem (List.mem_filter.mpr ⟨hx, by simp [he]⟩ : x ∈ l.filter (fun x => x.tid == i))
  have h1 := (Hist.api (Steps.trans h hs) ht hc (last E c) (l₁ := w₁.of i ++ a) (x := x) (l₂ := b) (by rw [hof, hab]; simp)).1
  rw [List.filterMap_map, List.filterMap_append] at h1
  exact hr (List.append_eq_nil_iff.mp h1).1

/-- The thread of an entry made by a call. -/
theorem owner {E : Env} {w : World} (h : Reachable E w) {x : Rec} (hx : x ∈ w.trace) {c : Api} (hg : x.gor = .api c) :
    ∃ t, w.threads[x.tid]? = some t ∧ t.gor = .api c := by
  obtain ⟨hr1, hr2⟩ := Follows.reach h
  have hi := hr1 x hx
  have ht : w.threads[x.tid]? = some w.threads[x.tid] := List.getElem?_eq_getElem hi
  generalize w.threads[x.tid] = t at ht
  have hof : x ∈ w.of x.tid := List.mem_filter.mpr ⟨hx, by simp⟩
  obtain ⟨h1, pre, h2, h3⟩ := hr2 x.tid t ht
  rw [h2] at hof
  rcases List.mem_append.mp hof with hx' | hx'
  · exact absurd hg (h3.not_api hx')
  · obtain ⟨e, -, he⟩ := List.mem_map.mp hx'
    rw [← he] at hg
    exact ⟨t, ht, hg⟩

end OneByOne

/-- C117: of two calls made one after the other, everything the first one does comes before everything the second one does. -/
theorem c117_before {E : Env} {p : Api → Bool} {w : World} (h : OneByOne E p w) {i j : Nat} {t t' : Thread} (ht : w.threads[i]? = some t)
    (ht' : w.threads[j]? = some t') (hp : picks p t.gor = true) (hp' : picks p t'.gor = true) (hij : i < j) :
    ∃ l₁ l₂, w.trace = l₁ ++ l₂ ∧ (∀ x ∈ l₁, x.tid ≠ j) ∧ (∀ x ∈ l₂, x.tid ≠ i) ∧ (∃ x ∈ l₁, x.tid = i ∧ (returned? x.ev).isSome = true) := by
  obtain ⟨w₁, h1, h2, h3, h4⟩ := OneByOne.made h ht' hp'
  obtain ⟨l, hl⟩ := h2.trace
  have hr := OneByOne.reach h
  cases hg : t.gor with
  | api c =>
    have hback := OneByOne.back h1 h2 ht hg (h3 ▸ hij)
    obtain ⟨t₁, ht₁, hg₁⟩ := hback
    have hn := h4 i t₁ ht₁ (by rw [hg₁, ← hg]; exact hp)
    refine ⟨w₁.trace, l, hl, fun x hx he => ?_, OneByOne.ended h1 h2 ht hg hn hl, ?_⟩
    · have := (Follows.reach h1).1 x hx
      omega
    · obtain ⟨r, hr⟩ := List.exists_mem_of_ne_nil _ hn
      obtain ⟨x, hx, hxr⟩ := List.mem_filterMap.mp hr
      obtain ⟨h5, h6⟩ := List.mem_filter.mp hx
      exact ⟨x, h5, by simpa using h6, by rw [hxr]; rfl⟩
  | _ => rw [hg] at hp; cases hp

namespace OneByOne

theorem sorted {E : Env} {p : Api → Bool} {w : World} (h : Spec.OneByOne E p w) : (doneBy p w).Pairwise fun x y => x.tid ≤ y.tid := by
  refine List.pairwise_iff_getElem.mpr fun a b ha hb hab => ?_
  have hx := List.mem_filter.mp (List.getElem_mem ha)
  have hy := List.mem_filter.mp (List.getElem_mem hb)
  generalize hx' : (doneBy p w)[a] = x at hx
  generalize hy' : (doneBy p w)[b] = y at hy
  refine Nat.le_of_not_lt fun hlt => ?_
  have thread : ∀ {x : Rec}, x ∈ w.trace ∧ picks p x.gor = true → ∃ t, w.threads[x.tid]? = some t ∧ picks p t.gor = true := by
    rintro x ⟨h1, h2⟩
    cases hg : x.gor with
    | api c =>
      obtain ⟨t, h3, h4⟩ := owner (reach h) h1 hg
      exact ⟨t, h3, by rw [h4, ← hg]; exact h2⟩
    | _ => rw [hg] at h2; cases h2
  obtain ⟨t, h1, h2⟩ := thread hx
  obtain ⟨t', h3, h4⟩ := thread hy
  obtain ⟨l₁, l₂, e, h5, h6, -⟩ := c117_before h h3 h1 h4 h2 hlt
  have hd : doneBy p w = l₁.filter (fun x => picks p x.gor) ++ l₂.filter (fun x => picks p x.gor) := by rw [doneBy, e, List.filter_append]
  have hx1 : ¬ a < (l₁.filter (fun x => picks p x.gor)).length := by
    intro hlt
    have : x ∈ l₁.filter (fun x => picks p x.gor) := by
      rw [← hx']
      simp only [hd]
      rw [List.getElem_append_left hlt]
      exact List.getElem_mem _
    exact h5 x (List.mem_filter.mp this).1 rfl
  have hy1 : b < (l₁.filter (fun x => picks p x.gor)).length := by
    refine Nat.lt_of_not_le fun hle => ?_
    have : y ∈ l₂.filter (fun x => picks p x.gor) := by
      rw [← hy']
      simp only [hd]
      rw [List.getElem_append_right hle]
      exact List.getElem_mem _
    exact h6 y (List.mem_filter.mp this).1 rfl
  omega

theorem cut {l : List Rec} (hs : l.Pairwise fun x y => x.tid ≤ y.tid) (n : Nat) (hn : ∀ x ∈ l, x.tid < n + 1) :
    l = l.filter (fun x => decide (x.tid < n)) ++ l.filter (fun x => x.tid == n) := by
  induction l with
  | nil => rfl
  | cons x l ih =>
    obtain ⟨h1, h2⟩ := List.pairwise_cons.mp hs
    have h3 := hn x List.mem_cons_self
    by_cases hx : x.tid < n
    · rw [List.filter_cons_of_pos (by simpa using hx), List.filter_cons_of_neg (by simp; omega), List.cons_append,
        ← ih h2 fun y hy => hn y (List.mem_cons_of_mem _ hy)]
    · have e : x.tid = n := by omega
      have h4 : ∀ y ∈ l, y.tid = n := fun y hy => by
        have := h1 y hy
        have := hn y (List.mem_cons_of_mem _ hy)
        omega
      rw [List.filter_cons_of_neg (by simpa using hx), List.filter_cons_of_pos (by simpa using e),
        List.filter_eq_nil_iff.mpr (fun y hy => by simp [h4 y hy]), List.filter_eq_self.mpr (fun y hy => by simp [h4 y hy])]
      rfl

theorem grouped {l : List Rec} (hs : l.Pairwise fun x y => x.tid ≤ y.tid) {n : Nat} (hn : ∀ x ∈ l, x.tid < n) :
    l = (List.range n).flatMap fun i => l.filter (fun x => x.tid == i) := by
  induction n generalizing l with
  | zero =>
    cases l with
    | nil => rfl
    | cons x l => exact absurd (hn x List.mem_cons_self) (by omega)
  | succ n ih =>
    have h1 := ih (l := l.filter fun x => decide (x.tid < n)) (hs.filter _) (fun x hx => by simpa using (List.mem_filter.mp hx).2)
    rw [List.range_succ, List.flatMap_append, List.flatMap_singleton]
    have h2 : (List.range n).flatMap (fun i => (l.filter fun x => decide (x.tid < n)).filter (fun x => x.tid == i)) =
        (List.range n).flatMap (fun i => l.filter (fun x => x.tid == i)) := by
      rw [List.flatMap_def, List.flatMap_def]
      refine congrArg List.flatten (List.map_congr_left fun i hi => ?_)
      rw [List.filter_filter]
      refine List.filter_congr fun x _ => ?_
      have := List.mem_range.mp hi
      by_cases hx : x.tid = i
      · simp [hx, this]
      · simp [hx]
    rw [← h2, ← h1]
    exact cut hs n hn

/-- The call a goroutine is in, if it is chosen by `p`. -/
def pick (p : Api → Bool) (t : Thread) : Option Api :=
  match t.gor with
  | .api c => if p c then some c else none
  | _ => none

theorem pick_some {p : Api → Bool} {t : Thread} {c : Api} : pick p t = some c ↔ t.gor = .api c ∧ p c = true := by
  obtain ⟨g, e, q⟩ := t
  cases g <;> simp only [pick, reduceCtorEq, false_and]
  rename_i d
  by_cases hd : p d = true
  · rw [if_pos hd]
    constructor
    · rintro ⟨⟩; exact ⟨rfl, hd⟩
    · rintro ⟨h1, -⟩; cases h1; rfl
  · rw [if_neg hd]
    constructor
    · rintro ⟨⟩
    · rintro ⟨h1, h2⟩; cases h1; exact absurd h2 hd

/-- The calls chosen by `p`, with their goroutines, up to the `m`-th goroutine. -/
def numbered (p : Api → Bool) (w : World) (m : Nat) : List (Nat × Api) :=
  (List.range m).filterMap fun i => (w.threads[i]?.bind (pick p)).map fun c => (i, c)

theorem numbered_calls (p : Api → Bool) (w : World) (m : Nat) : (numbered p w m).map Prod.snd = (w.threads.take m).filterMap (pick p) := by
  induction m with
  | zero => rfl
  | succ m ih =>
    rw [numbered, List.range_succ, List.filterMap_append, List.map_append, ← numbered, ih, List.take_add_one, List.filterMap_append]
    congr 1
    cases h : w.threads[m]? with
    | none => simp [h]
    | some t => cases h' : pick p t <;> simp [h, h']

theorem numbered_mem {p : Api → Bool} {w : World} {m : Nat} {a : Nat × Api} (h : a ∈ numbered p w m) :
    a.1 < m ∧ ∃ t, w.threads[a.1]? = some t ∧ t.gor = .api a.2 ∧ p a.2 = true := by
  obtain ⟨i, hi, h1⟩ := List.mem_filterMap.mp h
  obtain ⟨c, h2, rfl⟩ := Option.map_eq_some_iff.mp h1
  obtain ⟨t, h3, h4⟩ := Option.bind_eq_some_iff.mp h2
  exact ⟨List.mem_range.mp hi, t, h3, pick_some.mp h4⟩

theorem numbered_lt (p : Api → Bool) (w : World) (m : Nat) : (numbered p w m).Pairwise fun a b => a.1 < b.1 := by
  induction m with
  | zero => exact .nil
  | succ m ih =>
    rw [numbered, List.range_succ, List.filterMap_append, ← numbered, List.pairwise_append]
    refine ⟨ih, ?_, fun a ha b hb => ?_⟩
    · rw [List.filterMap_cons]
      split
      · exact .nil
      · exact List.pairwise_singleton _ _
    · obtain ⟨i, hi, h1⟩ := List.mem_filterMap.mp hb
      cases List.mem_singleton.mp hi
      obtain ⟨c, -, rfl⟩ := Option.map_eq_some_iff.mp h1
      exact (numbered_mem ha).1

/-- What the calls chosen by `p` have done, call after call. -/
theorem listed {E : Env} {p : Api → Bool} {w : World} (h : Spec.OneByOne E p w) :
    ∃ xs : List (Nat × Api), xs.map Prod.snd = callsOf p w ∧ doneBy p w = xs.flatMap (fun a => w.of a.1) ∧ xs.Pairwise (fun a b => a.1 < b.1) ∧
      ∀ a ∈ xs, ∃ t, w.threads[a.1]? = some t ∧ t.gor = .api a.2 ∧ p a.2 = true := by
  refine ⟨numbered p w w.threads.length, ?_, ?_, numbered_lt .., fun a ha => (numbered_mem ha).2⟩
  · rw [numbered_calls, List.take_length]; rfl
  · have h1 := grouped (sorted h) (n := w.threads.length) fun x hx => (Follows.reach (reach h)).1 x (List.mem_filter.mp hx).1
    rw [h1, numbered, List.flatMap_def]
    have key : ∀ (l : List Nat), l.flatMap (fun i => (doneBy p w).filter fun x => x.tid == i) =
        (l.filterMap fun i => (w.threads[i]?.bind (pick p)).map fun c => (i, c)).flatMap fun a => w.of a.1 := by
      intro l
      induction l with
      | nil => rfl
      | cons i l ih =>
        rw [List.flatMap_cons, ih, List.filterMap_cons]
        cases hc : w.threads[i]?.bind (pick p) with
        | some c =>
          obtain ⟨t, h3, h4⟩ := Option.bind_eq_some_iff.mp hc
          obtain ⟨h5, h6⟩ := pick_some.mp h4
          simp only [Option.map_some, List.flatMap_cons]
          congr 1
          rw [doneBy, List.filter_filter, World.of]
          refine List.filter_congr fun x hx => ?_
          by_cases hi : x.tid = i
          · have hof : x ∈ w.of i := List.mem_filter.mpr ⟨hx, by simp [hi]⟩
            rw [(Follows.api (reach h) h3 h5).2] at hof
            obtain ⟨e, -, rfl⟩ := List.mem_map.mp hof
            simp [picks, h6]
          · simp [hi]
        | none =>
          simp only [Option.map_none]
          rw [List.filter_eq_nil_iff.mpr]
          · rfl
          · intro x hx hi
            obtain ⟨h3, h4⟩ := List.mem_filter.mp hx
            have hi : x.tid = i := by simpa using hi
            cases hg : x.gor with
            | api c =>
              obtain ⟨t, h5, h6⟩ := owner (reach h) h3 hg
              rw [hi] at h5
              have h7 : pick p t = some c := pick_some.mpr ⟨h6, by rw [hg] at h4; exact h4⟩
              rw [h5] at hc
              have hc : pick p t = none := hc
              rw [h7] at hc
              cases hc
            | _ => rw [hg] at h4; cases h4
    exact key _

theorem single {E : Env} {w : World} (h : Reachable E w) {i : Nat} {t : Thread} (ht : w.threads[i]? = some t) {c : Api} (hc : t.gor = .api c)
    {r : ApiRes} (hr : r ∈ returns (w.of i)) : returns (w.of i) = [r] := by
  obtain ⟨l, hl, -⟩ := Hist.call h ht hc (last E c) hr
  have := (Hist.api h ht hc (last E c) (l₁ := l) (x := ⟨i, .api c, .done r, ()⟩) (l₂ := []) hl).1
  rw [List.filterMap_map] at this
  rw [hl, returns, List.filterMap_append]
  have e : l.filterMap (fun x => returned? x.ev) = [] := this
  rw [e]; rfl

/-- A list that is good up to a point and bad from there on. -/
theorem point {α : Type} {good bad : α → Prop} {xs : List α} (h : ∀ a ∈ xs, good a ∨ bad a) (hp : xs.Pairwise fun a b => bad a → bad b) :
    ∃ ys zs, xs = ys ++ zs ∧ (∀ a ∈ ys, good a) ∧ ∀ a ∈ zs, bad a := by
  induction xs with
  | nil => exact ⟨[], [], rfl, nofun, nofun⟩
  | cons x xs ih =>
    obtain ⟨h1, h2⟩ := List.pairwise_cons.mp hp
    rcases h x List.mem_cons_self with hx | hx
    · obtain ⟨ys, zs, rfl, h3, h4⟩ := ih (fun a ha => h a (List.mem_cons_of_mem _ ha)) h2
      refine ⟨x :: ys, zs, rfl, fun a ha => ?_, h4⟩
      rcases List.mem_cons.mp ha with rfl | ha
      · exact hx
      · exact h3 a ha
    · refine ⟨[], x :: xs, rfl, nofun, fun a ha => ?_⟩
      rcases List.mem_cons.mp ha with rfl | ha
      · exact hx
      · exact h1 a ha hx

/-- After a call that returned `ErrNotEstablished` the later ones do the same. -/
theorem refused {E : Env} {p : Api → Bool} {w : World} (h : Spec.OneByOne E p w) (hp : ∀ c, p c = true → payloadCall c = true) (hb : Between p w)
    {i j : Nat} (hij : i < j) {t t' : Thread} {c c' : Api} (ht : w.threads[i]? = some t) (ht' : w.threads[j]? = some t') (hc : t.gor = .api c)
    (hc' : t'.gor = .api c') (hpc : p c = true) (hpc' : p c' = true) (hf : returns (w.of i) = [.fail .notEstablished]) :
    sends (w.of j) = [] ∧ takes (w.of j) = [] ∧ returns (w.of j) = [.fail .notEstablished] := by
  obtain ⟨w₁, h1, h2, h3, h4⟩ := made h ht' (by rw [hc']; exact hpc')
  obtain ⟨t₁, ht₁, hg₁⟩ := back h1 h2 ht hc (h3 ▸ hij)
  have hn := h4 i t₁ ht₁ (by rw [hg₁]; exact hpc)
  obtain ⟨l, hl⟩ := h2.trace
  have hm : .fail .notEstablished ∈ returns (w₁.of i) := by
    obtain ⟨r, hr⟩ := List.exists_mem_of_ne_nil _ hn
    have hof : w.of i = w₁.of i ++ l.filter (fun x => x.tid == i) := by rw [World.of, hl, List.filter_append]; rfl
    have : r ∈ returns (w.of i) := by
      rw [hof, returns, List.filterMap_append]
      exact List.mem_append_left _ hr
    rw [hf] at this
    rw [← List.mem_singleton.mp this]
    exact hr
  obtain ⟨a1, a2, a3⟩ := (c114_final h1 ht₁ hg₁ (hp c hpc) hm h2).2 j t' c' ht' hc' (hp c' hpc') (by omega)
  obtain ⟨r, hr⟩ := List.exists_mem_of_ne_nil _ (hb j t' ht' (by rw [hc']; exact hpc'))
  have := a3 r hr
  subst this
  exact ⟨a1, a2, single (reach h) ht' hc' hr⟩

end OneByOne

/-- C117: payloads written one after the other, by whatever methods, while none of these calls is under way. There is a point up to which each call has handed
its datagram to SCTP; all later calls have handed over nothing and returned `ErrNotEstablished`. So the datagrams are those of the first calls, in the order of
the calls, and a result other than `ErrNotEstablished` stands for one datagram. -/
theorem c117_written {E : Env} {w : World} (h : OneByOne E writeCall w) (hb : Between writeCall w) :
    ∃ rs m, returns (doneBy writeCall w) = rs ++ List.replicate m (.fail .notEstablished) ∧ rs.length + m = (callsOf writeCall w).length ∧
      (∀ r ∈ rs, r ≠ .fail .notEstablished) ∧
      (sends (doneBy writeCall w)).map (fun s => some s.bytes) = ((callsOf writeCall w).take rs.length).map (datagram? E.cfg) := by
  obtain ⟨xs, h1, h2, h3, h4⟩ := OneByOne.listed h
  have hr := OneByOne.reach h
  let good : Nat × Api → Prop := fun a => ∃ s r, sends (w.of a.1) = [s] ∧ returns (w.of a.1) = [r] ∧ r ≠ .fail .notEstablished ∧
    datagram? E.cfg a.2 = some s.bytes
  let bad : Nat × Api → Prop := fun a => sends (w.of a.1) = [] ∧ returns (w.of a.1) = [.fail .notEstablished]
  have outcome : ∀ a ∈ xs, good a ∨ bad a := by
    rintro ⟨i, c⟩ ha
    obtain ⟨t, ht, hg, hp⟩ := h4 _ ha
    obtain ⟨r, hm⟩ := List.exists_mem_of_ne_nil _ (hb i t ht (by rw [hg]; exact hp))
    have hs := OneByOne.single hr ht hg hm
    have key : ∀ {d : Bytes} {streams : UInt16 → Prop}, datagram? E.cfg c = some d → WriteOutcome d streams (observes (w.of i)) (sends (w.of i)) r →
        good (i, c) ∨ bad (i, c) := by
      rintro d streams hd (⟨st, -, -, h5, rfl⟩ | ⟨-, x, h5, rfl, -, -, h6⟩)
      · exact .inr ⟨h5, hs⟩
      · refine .inl ⟨x, r, h5, hs, ?_, hd⟩
        rw [h6]
        cases x.answer <;> nofun
    cases c <;> first | (cases hp; done) | skip
    · exact key rfl (c41_write hr ht hg hm)
    · exact key rfl (c41_writeToStream hr ht hg hm)
    · exact key rfl (c41_writePD hr ht hg hm)
    · exact key rfl (c41_writePDToStream hr ht hg hm)
  have later : xs.Pairwise fun a b => bad a → bad b := by
    refine h3.imp_of_mem fun {a b} ha hb' hlt hbad => ?_
    obtain ⟨t, ht, hg, hp⟩ := h4 _ ha
    obtain ⟨t', ht', hg', hp'⟩ := h4 _ hb'
    obtain ⟨a1, -, a3⟩ := OneByOne.refused h (fun c hc => by cases c <;> first | rfl | cases hc) hb hlt ht ht' hg hg' hp hp' hbad.2
    exact ⟨a1, a3⟩
  obtain ⟨ys, zs, rfl, hy, hz⟩ := OneByOne.point outcome later
  have hZ : (zs.flatMap fun a => returns (w.of a.1)) = List.replicate zs.length (.fail .notEstablished) ∧ (zs.flatMap fun a => sends (w.of a.1)) = [] := by
    clear h1 h2 h3 h4 outcome later hy
    induction zs with
    | nil => exact ⟨rfl, rfl⟩
    | cons a zs ih =>
      obtain ⟨i1, i2⟩ := ih fun b hb => hz b (List.mem_cons_of_mem _ hb)
      obtain ⟨b1, b2⟩ := hz a List.mem_cons_self
      rw [List.flatMap_cons, List.flatMap_cons, b1, b2, i1, i2]
      exact ⟨rfl, rfl⟩
  have hY : (ys.flatMap fun a => returns (w.of a.1)).length = ys.length ∧ (∀ r ∈ ys.flatMap fun a => returns (w.of a.1), r ≠ .fail .notEstablished) ∧
      (ys.flatMap fun a => sends (w.of a.1)).map (fun s => some s.bytes) = (ys.map Prod.snd).map (datagram? E.cfg) := by
    clear h1 h2 h3 h4 outcome later hz hZ
    induction ys with
    | nil => exact ⟨rfl, nofun, rfl⟩
    | cons a ys ih =>
      obtain ⟨i1, i2, i3⟩ := ih fun b hb => hy b (List.mem_cons_of_mem _ hb)
      obtain ⟨s, r, b1, b2, b3, b4⟩ := hy a List.mem_cons_self
      rw [List.flatMap_cons, List.flatMap_cons, b1, b2]
      refine ⟨by simp [i1], fun x hx => ?_, by simp [i3, b4]⟩
      rcases List.mem_append.mp hx with hx | hx
      · rw [List.mem_singleton.mp hx]; exact b3
      · exact i2 x hx
  have split : ∀ {β : Type} (f : Rec → Option β), (doneBy writeCall w).filterMap f = (ys ++ zs).flatMap fun a => (w.of a.1).filterMap f := by
    intro β f
    rw [h2, List.filterMap_flatMap]
  refine ⟨ys.flatMap fun a => returns (w.of a.1), zs.length, ?_, ?_, hY.2.1, ?_⟩
  · rw [← hZ.1, ← List.flatMap_append]
    exact split _
  · rw [hY.1, ← h1]; simp
  · rw [sends, split, List.flatMap_append, List.map_append]
    have e := hZ.2
    simp only [sends] at e hY ⊢
    rw [e, hY.2.2, hY.1, ← h1, List.map_append, List.take_append_of_le_length (by simp), List.take_of_length_le (by simp)]
    simp

/-- C117: payloads read one after the other, by `Read` or `ReadPD`, while none of these calls is under way. There is a point up to which the calls have returned
the payloads queued, one each and in the order of the queue (C66); all later calls have returned `ErrNotEstablished`. -/
theorem c117_read {E : Env} {w : World} (h : OneByOne E readCall w) (hb : Between readCall w) :
    ∃ qs m, returns (doneBy readCall w) = List.zipWith resultOf (callsOf readCall w) qs ++ List.replicate m (.fail .notEstablished) ∧
      qs.length + m = (callsOf readCall w).length ∧ qs.Sublist (queues w.trace) ∧ (w.sh.ctxDone = false → qs ++ w.sh.dataQ = queues w.trace) := by
  obtain ⟨xs, h1, h2, h3, h4⟩ := OneByOne.listed h
  have hr := OneByOne.reach h
  let good : Nat × Api → Prop := fun a => ∃ pd, takes (w.of a.1) = [some pd] ∧ returns (w.of a.1) = [resultOf a.2 pd]
  let bad : Nat × Api → Prop := fun a => (takes (w.of a.1)).filterMap id = [] ∧ returns (w.of a.1) = [.fail .notEstablished]
  have outcome : ∀ a ∈ xs, good a ∨ bad a := by
    rintro ⟨i, c⟩ ha
    obtain ⟨t, ht, hg, hp⟩ := h4 _ ha
    obtain ⟨r, hm⟩ := List.exists_mem_of_ne_nil _ (hb i t ht (by rw [hg]; exact hp))
    have hs := OneByOne.single hr ht hg hm
    have key : ReadOutcome (resultOf c) (observes (w.of i)) (takes (w.of i)) r → good (i, c) ∨ bad (i, c) := by
      rintro (⟨st, -, -, h5, rfl⟩ | ⟨-, x, h5, h6⟩)
      · exact .inr ⟨by simp only [h5]; rfl, hs⟩
      · cases x with
        | none => exact .inr ⟨by simp only [h5]; rfl, by rw [hs, h6]⟩
        | some pd => exact .inl ⟨pd, h5, by rw [hs, h6]⟩
    cases c <;> first | (cases hp; done) | skip
    · exact key (c42_read hr ht hg hm).1
    · exact key (c42_readPD hr ht hg hm).1
  have later : xs.Pairwise fun a b => bad a → bad b := by
    refine h3.imp_of_mem fun {a b} ha hb' hlt hbad => ?_
    obtain ⟨t, ht, hg, hp⟩ := h4 _ ha
    obtain ⟨t', ht', hg', hp'⟩ := h4 _ hb'
    obtain ⟨-, a2, a3⟩ := OneByOne.refused h (fun c hc => by cases c <;> first | rfl | cases hc) hb hlt ht ht' hg hg' hp hp' hbad.2
    exact ⟨by rw [a2]; rfl, a3⟩
  obtain ⟨ys, zs, rfl, hy, hz⟩ := OneByOne.point outcome later
  have hZ : (zs.flatMap fun a => returns (w.of a.1)) = List.replicate zs.length (.fail .notEstablished) ∧
      (zs.flatMap fun a => takes (w.of a.1)).filterMap id = [] := by
    clear h1 h2 h3 h4 outcome later hy
    induction zs with
    | nil => exact ⟨rfl, rfl⟩
    | cons a zs ih =>
      obtain ⟨i1, i2⟩ := ih fun b hb => hz b (List.mem_cons_of_mem _ hb)
      obtain ⟨b1, b2⟩ := hz a List.mem_cons_self
      rw [List.flatMap_cons, List.flatMap_cons, List.filterMap_append, b1, b2, i1, i2]
      exact ⟨rfl, rfl⟩
  obtain ⟨qs, hq1, hq2, hq3⟩ : ∃ qs : List ProtocolDataPayload, qs.length = ys.length ∧
      (ys.flatMap fun a => returns (w.of a.1)) = List.zipWith resultOf (ys.map Prod.snd) qs ∧ (ys.flatMap fun a => takes (w.of a.1)).filterMap id = qs := by
    clear h1 h2 h3 h4 outcome later hz hZ
    induction ys with
    | nil => exact ⟨[], rfl, rfl, rfl⟩
    | cons a ys ih =>
      obtain ⟨qs, i1, i2, i3⟩ := ih fun b hb => hy b (List.mem_cons_of_mem _ hb)
      obtain ⟨pd, b1, b2⟩ := hy a List.mem_cons_self
      refine ⟨pd :: qs, by simp [i1], ?_, ?_⟩
      · rw [List.flatMap_cons, b2, i2]; rfl
      · rw [List.flatMap_cons, List.filterMap_append, b1, i3]; rfl
  have split : ∀ {β : Type} (f : Rec → Option β), (doneBy readCall w).filterMap f = (ys ++ zs).flatMap fun a => (w.of a.1).filterMap f := by
    intro β f
    rw [h2, List.filterMap_flatMap]
  have all : takes w.trace = takes (doneBy readCall w) := by
    have : ∀ l : List Rec, (∀ x ∈ l, x ∈ w.trace) → takes l = takes (l.filter fun x => picks readCall x.gor) := by
      intro l hl
      induction l with
      | nil => rfl
      | cons x l ih =>
        have ih := ih fun y hy => hl y (List.mem_cons_of_mem _ hy)
        by_cases hx : picks readCall x.gor = true
        · rw [List.filter_cons_of_pos (p := fun x : Rec => picks readCall x.gor) hx]
          simp only [takes, List.filterMap_cons] at ih ⊢
          rw [ih]
        · rw [List.filter_cons_of_neg (p := fun x : Rec => picks readCall x.gor) hx, ← ih]
          have hn : took? x.ev = none := by
            have hro := (Role.reach hr x (hl x List.mem_cons_self)).2
            obtain ⟨i, g, o, r⟩ := x
            cases o <;> first | rfl | skip
            exfalso
            apply hx
            simp only [Role.role] at hro
            split at hro <;> first | rfl | cases hro
          simp only [takes, List.filterMap_cons, hn]
    exact this w.trace fun _ => id
  have htk : (takes w.trace).filterMap id = qs := by
    rw [all, takes, split, List.flatMap_append, List.filterMap_append]
    have e := hZ.2
    simp only [takes] at e hq3
    rw [e, hq3, List.append_nil]
  obtain ⟨f1, f2⟩ := c66_fifo hr
  rw [htk] at f1 f2
  refine ⟨qs, zs.length, ?_, by rw [hq1, ← h1]; simp, (List.sublist_append_left qs w.sh.dataQ).trans f1, f2⟩
  rw [returns, split, List.flatMap_append]
  have e := hZ.1
  simp only [returns] at e hq2
  rw [e, hq2, ← h1, List.map_append]
  congr 1
  have hlen : (ys.map Prod.snd).length = qs.length := by rw [hq1]; simp
  have zip : ∀ (as bs : List Api) (ps : List ProtocolDataPayload), as.length = ps.length → List.zipWith resultOf as ps = List.zipWith resultOf (as ++ bs) ps := by
    intro as
    induction as with
    | nil =>
      intro bs ps hl
      cases ps with
      | nil => simp
      | cons => cases hl
    | cons a as ih =>
      intro bs ps hl
      cases ps with
      | nil => cases hl
      | cons q ps => rw [List.cons_append, List.zipWith_cons_cons, List.zipWith_cons_cons, ih bs ps (by simpa using hl)]
  exact zip _ _ _ hlen

namespace OneByOne

/-- If a call chosen by `p` was made in this step, all the earlier ones had returned. -/
def orderly (p : Api → Bool) (w w' : World) : Bool :=
  w'.threads.length == w.threads.length || !((w'.threads.getLast?.map fun t => picks p t.gor).getD false) ||
    w.threads.zipIdx.all fun a => !picks p a.1.gor || !(returns (w.of a.2)).isEmpty

def playOne (p : Api → Bool) (B : Gor → Prog (Option Gor)) (w : World) : List Choice → Option World
  | [] => some w
  | c :: cs => match step B w c with
    | none => none
    | some v => if orderly p w v then playOne p B v cs else none

theorem between {p : Api → Bool} {w : World} (h : (w.threads.zipIdx.all fun a => !picks p a.1.gor || !(returns (w.of a.2)).isEmpty) = true) : Between p w := by
  intro i t ht hp hn
  have := List.all_eq_true.mp h (t, i) (List.mem_zipIdx_iff_getElem?.mpr ht)
  simp [hp, hn] at this

theorem playOne_sound {E : Env} {p : Api → Bool} {w w' : World} {cs : List Choice} (hw : Spec.OneByOne E p w) (h : playOne p (body E) w cs = some w') :
    Spec.OneByOne E p w' := by
  induction cs generalizing w with
  | nil => cases h; exact hw
  | cons c cs ih =>
    simp only [playOne] at h
    split at h
    · cases h
    · rename_i v hs
      split at h
      · rename_i ho
        refine ih (.step hw (step_sound hs) fun c hc he => ?_) h
        rw [orderly, he] at ho
        simp only [List.length_append, List.length_singleton, List.getLast?_append, List.getLast?_singleton, Option.some_or, Option.map_some,
          Option.getD_some, Thread.fresh, picks, hc, Bool.not_true, Bool.or_false] at ho
        rw [Bool.or_eq_true] at ho
        rcases ho with ho | ho
        · simp at ho
        · exact between ho
      · cases h

theorem reach_one {α : Type} {E : Env} {p : Api → Bool} {cs : List Choice} {f : World → α} {v : α}
    (h : (playOne p (body' E) (M3.Conn.init E) cs).map f = some v) : ∃ w, Spec.OneByOne E p w ∧ f w = v := by
  cases hp : playOne p (body' E) (M3.Conn.init E) cs with
  | none => rw [hp] at h; cases h
  | some w => rw [hp] at h; exact ⟨w, playOne_sound .init (body_eq E ▸ hp), Option.some.inj h⟩

end OneByOne

/-- For `c117_written` and `c117_before`: two payloads are written, while somebody else waits for one; the connection is closed, a third is written. -/
example : ∃ w, OneByOne E₀ writeCall w ∧ Between writeCall w ∧ callsOf writeCall w = [.write [7], .write [8], .write [9]] ∧
    returns (doneBy writeCall w) = [.wrote 28, .wrote 28, .fail .notEstablished] ∧ (sends (doneBy writeCall w)).length = 2 := by
  obtain ⟨w, h1, h2⟩ := OneByOne.reach_one (E := E₀) (p := writeCall)
    (cs := opening .client ++ [.call (.write [7]), .run 5 (.std 2)] ++ go 5 3 ++ [.call .readPD] ++ go 6 1 ++ go 5 1 ++
      [.call (.write [8]), .run 7 (.std 1)] ++ go 7 4 ++ [.call .close] ++ go 8 9 ++ [.call (.write [9]), .run 9 (.std 1)] ++ go 9 2)
    (f := fun w => (w.threads.zipIdx.all fun a => !picks writeCall a.1.gor || !(returns (w.of a.2)).isEmpty, callsOf writeCall w, returns (doneBy writeCall w),
      (sends (doneBy writeCall w)).length))
    (v := (true, [.write [7], .write [8], .write [9]], [.wrote 28, .wrote 28, .fail .notEstablished], 2)) (by kernel_rfl)
  simp only [Prod.mk.injEq] at h2
  exact ⟨w, h1, OneByOne.between h2.1, h2.2⟩

/-- For `c117_read`: two payloads arrive, `Read` with an empty buffer and `ReadPD` get them; the connection is closed, and `ReadPD` fails. -/
example : ∃ w, OneByOne E₀ readCall w ∧ Between readCall w ∧ w.sh.ctxDone = false ∧ callsOf readCall w = [.read 0, .readPD, .readPD] ∧
    returns (doneBy readCall w) = [.data 1 [], .pd ⟨0, 0, 0, 0, 0, 0, [7]⟩, .fail .notEstablished] ∧
    queues w.trace = [⟨0, 0, 0, 0, 0, 0, [8]⟩, ⟨0, 0, 0, 0, 0, 0, [7]⟩] := by
  obtain ⟨w, h1, h2⟩ := OneByOne.reach_one (E := E₀) (p := readCall)
    (cs := opening .client ++ twoData ++ go 8 2 ++ go 6 2 ++ [.call (.read 0)] ++ go 9 3 ++ [.call .readPD] ++ go 10 3 ++ [.call .close] ++ go 11 9 ++
      [.call .readPD] ++ go 12 2)
    (f := fun w => (w.threads.zipIdx.all fun a => !picks readCall a.1.gor || !(returns (w.of a.2)).isEmpty, w.sh.ctxDone, callsOf readCall w,
      returns (doneBy readCall w), queues w.trace))
    (v := (true, false, [.read 0, .readPD, .readPD], [.data 1 [], .pd ⟨0, 0, 0, 0, 0, 0, [7]⟩, .fail .notEstablished],
      [⟨0, 0, 0, 0, 0, 0, [8]⟩, ⟨0, 0, 0, 0, 0, 0, [7]⟩])) (by kernel_rfl)
  simp only [Prod.mk.injEq] at h2
  exact ⟨w, h1, OneByOne.between h2.1, h2.2⟩

end M3.Conn
