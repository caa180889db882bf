import Verif.Props.PredictCommand
import Verif.Props.Stopping

/-!
# C66: predictions for projects without spread

For such a project no random numbers are used, so that the whole program can be followed to its end.
-/

set_option linter.unusedSectionVars false

namespace Angonoka.Props
open Angonoka Outcome Stun Cli

variable {K : Type} [Field K] [LinearOrder K] [IsStrictOrderedRing K] [FloorRing K]
variable {E : FloatEnv K} {m : Machine K} {o : Cli.Options K} {q : List Int → List K}

/-- All runs give `v` and use no random numbers. -/
def ConstantRuns (E : FloatEnv K) (p : Project) (s : List Item) (v : Int) : Prop :=
  ∀ sim zs, SimulationFor E p sim → ∃ sim', sim.call E s zs = ok (some (v, zs, sim'))

theorem ConstantRuns.result {p : Project} {s : List Item} {v : Int} (h : ConstantRuns E p s v) {v' : Int}
    (hv : RunResult E p s v') : v' = v := by
  obtain ⟨sim, zs, zs', sim', hs, hc⟩ := hv
  obtain ⟨sim'', hc'⟩ := h sim zs hs
  rw [hc] at hc'
  have := (Outcome.ok.injEq ..).mp hc'
  simp only [Option.some.injEq, Prod.mk.injEq] at this
  exact this.1

theorem ConstantRuns.eq_replicate {p : Project} {s : List Item} {v : Int} (h : ConstantRuns E p s v)
    {vs : List Int} (hv : ∀ v' ∈ vs, RunResult E p s v') : vs = List.replicate vs.length v :=
  List.eq_replicate_iff.2 ⟨rfl, fun v' hv' => h.result (hv v' hv')⟩

theorem deterministic_runs (hE : E.IsExact) {p : Project} (hp : p.Sound) (hmod : p.Moderate)
    {sp : ScheduleParams K} (hsp : toScheduleParams E p = ok sp) {s : List Item}
    (hs : ValidSchedule sp s) (hperf : ∀ a ∈ p.agents, a.perfMin = a.perfMax)
    (hdur : ∀ t ∈ p.tasks, t.durMin = t.durMax) : ∃ v ≥ 1, ConstantRuns E p s v := by
  have hf : p.FloatsIn E := fun _ _ _ _ => hE _
  obtain ⟨hw, hc⟩ := secondsParams_wellFormed hp hf hsp
  have hs' := secondsParams_valid hc hs
  obtain ⟨st, fi, hex, hend, _, hl⟩ := makespanValue_spec (E := E) hw hs'
  generalize makespanValue E (p.secondsParams E sp) (p.secondsParams E sp).agentCount s = V at hend
  refine ⟨⌊V⌋, ?_, fun sim zs hsim => deterministic_value hp hf hsp hs hperf hdur ⟨hex, hl⟩ hend
    (isWholePart_floor V) hsim zs⟩
  obtain ⟨it, hit, h⟩ := (moderate_executions hE hp hmod hsp hs).2 st fi hex
  exact Int.le_floor.2 (by exact_mod_cast h.trans (hend.1 it hit))

theorem more_constant (hE : E.IsExact) (hq : FiveQuantiles q) (hc : ConstantQuantiles q) {v : Int}
    (hv : 1 ≤ v) (n : Nat) : ∃ c, Stopping.more E q (List.replicate n v) = ok c := by
  unfold Stopping.more
  rw [after_ok hE hq, ok_bind]
  · exact ⟨_, rfl⟩
  · intro i h1 h2 x hx
    simp only [List.length_replicate] at h2
    have hb : HistogramOp.batchSize = 10000 := rfl
    rw [hb] at h2
    rw [take_replicate (by omega), constant_five hc (by omega)] at hx
    have : x = v := by simpa using hx
    rw [this]
    intro h0
    have hv' : (1 : K) ≤ v := by exact_mod_cast hv
    rw [h0] at hv'
    linarith

theorem batchLoop_constant {p : Project} {s : List Item} {v w : Int} {zs₀ : List K} (h : ConstantRuns E p s v)
    (hv : 0 ≤ v) (hw : 1 ≤ w) {n : Nat} {op : HistogramOp K} (hi : OpInv E p s w zs₀ op) :
    ∃ op', HistogramOp.batchLoop E s n op = ok (some op') ∧ op'.log = op.log ++ List.replicate n v := by
  have hsafe : SafeRuns E p s := by
    intro sim zs hsim
    obtain ⟨sim', hc⟩ := h sim zs hsim
    refine ⟨_, hc, ?_⟩
    intro v' zs' sim'' he
    cases he
    exact hv
  obtain ⟨r, hr⟩ := hi.batchLoop_safe hw hsafe (n := n)
  induction n generalizing op with
  | zero => exact ⟨op, rfl, by simp⟩
  | succ n ih =>
    obtain ⟨sim', hc⟩ := h op.sim op.zs hi.sim
    rw [HistogramOp.batchLoop, hc, ok_bind] at hr ⊢
    dsimp only at hr ⊢
    obtain ⟨hist, hin, hr⟩ := bind_eq_ok.1 hr
    rw [hin, ok_bind]
    obtain ⟨op', h1, h2⟩ := ih (hi.step hc hin) hr
    refine ⟨op', h1, ?_⟩
    rw [h2]
    simp [List.replicate_succ]

/-- What the stopping rule says if all results are `v`: the first 15 batches are not enough, unless the results are one second -/
def StopsAt16 (more : List Int → Outcome Bool) (v : Int) : Prop :=
  ∀ j, 1 ≤ j → j ≤ 16 → more (List.replicate (10000 * j) v) = ok (decide (v ≠ 1 ∧ j < 16))

theorem loop_constant {more : List Int → Outcome Bool} {p : Project} {s : List Item} {v w : Int} {zs₀ : List K}
    (hstop : StopsAt16 more v) (h : ConstantRuns E p s v) (hv : 1 ≤ v) (hw : 1 ≤ w) (hs : s ≠ []) {fuel j : Nat}
    {op : HistogramOp K} (hi : OpInv E p s w zs₀ op) (hj : 1 ≤ j) (hj16 : j ≤ 16) (hf : 16 ≤ fuel + j - 1)
    (hlog : op.log = List.replicate (10000 * j) v) :
    ∃ op', op.loop E s more fuel = ok (some op') := by
  induction fuel generalizing op j with
  | zero => omega
  | succ fuel ih =>
    rw [HistogramOp.loop, hlog, hstop j hj hj16, ok_bind]
    by_cases hd : v ≠ 1 ∧ j < 16
    · rw [if_pos (by simpa using hd)]
      obtain ⟨op1, h1, h2⟩ := batchLoop_constant h (by omega) hw (n := HistogramOp.batchSize) hi
      have h3 : op.runBatch E s = ok (some op1) := by
        unfold HistogramOp.runBatch
        rw [expects_true (by simpa using hs), ok_bind, h1]
      rw [h3, ok_bind]
      refine ih (j := j + 1) (hi.runBatch h3).1 (by omega) (by omega) (by omega) ?_
      rw [h2, hlog, show HistogramOp.batchSize = 10000 from rfl, List.replicate_append_replicate, Nat.mul_succ]
    · rw [if_neg (by simpa using hd)]
      exact ⟨op, rfl⟩

/-- For a project without spread the simulation returns, after the first batch or 16 batches. -/
theorem histogram_constant_core {more : List Int → Outcome Bool} {p : Project} (hp : p.Sound) (hf : p.FloatsIn E)
    {sp : ScheduleParams K} (hsp : toScheduleParams E p = ok sp) {s : List Item}
    (hs : ValidSchedule sp s) {v : Int} (hstop : StopsAt16 more v) (hans : ∀ n, ∃ c, more (List.replicate n v) = ok c)
    (h : ConstantRuns E p s v) (hv : 1 ≤ v)
    {binSize : Option Int} (hb : ∀ b ∈ binSize, 1 ≤ b) {makespan : Int}
    (hm : 1 ≤ makespan) {fuel : Nat} (hfuel : 16 ≤ fuel) (zs : List K) :
    ∃ hist, histogram E p binSize s makespan more fuel zs = ok (some hist) := by
  obtain ⟨r, hr⟩ := histogram_safe hp hf hsp hs hb hm (more := more) fuel (zs := zs) (by
    intro vs _ _ _ _ hvs
    rw [h.eq_replicate hvs.result]
    exact hans _)
  unfold histogram at hr ⊢
  obtain ⟨_, e1, hr⟩ := bind_eq_ok.1 hr
  obtain ⟨_, e2, hr⟩ := bind_eq_ok.1 hr
  obtain ⟨_, e3, hr⟩ := bind_eq_ok.1 hr
  obtain ⟨sim, e4, hr⟩ := bind_eq_ok.1 hr
  obtain ⟨w, e5, hr⟩ := bind_eq_ok.1 hr
  obtain ⟨hist, e6, hr⟩ := bind_eq_ok.1 hr
  rw [e1, ok_bind, e2, ok_bind, e3, ok_bind, e4, ok_bind, e5, ok_bind, e6, ok_bind]
  have hsne : s ≠ [] := by simpa using expects_eq_ok.1 e3
  have hw : 1 ≤ w := by
    unfold Histogram.new at e6
    obtain ⟨_, e7, _⟩ := bind_eq_ok.1 e6
    simpa using expects_eq_ok.1 e7
  have hinit := opInv_init (E := E) (s := s) (zs := zs) e4 e6
  obtain ⟨op1, h1, h2⟩ := batchLoop_constant h (by omega) hw (n := HistogramOp.batchSize) hinit
  have h3 : HistogramOp.runBatch E s { sim := sim, hist := hist, zs := zs, log := [] } = ok (some op1) := by
    unfold HistogramOp.runBatch
    rw [expects_true (by simpa using hsne), ok_bind, h1]
  obtain ⟨op2, h4⟩ := loop_constant hstop h hv hw hsne (fuel := fuel) (j := 1)
    (hinit.runBatch h3).1 le_rfl (by omega) (by omega) (by rw [h2]; rfl)
  unfold HistogramOp.call at hr ⊢
  rw [h3, ok_bind] at hr ⊢
  dsimp only at hr ⊢
  rw [h4, ok_bind] at hr ⊢
  dsimp only at hr ⊢
  obtain ⟨_, e7, _⟩ := bind_eq_ok.1 hr
  rw [e7, ok_bind]
  exact ⟨_, rfl⟩

/-- In exact arithmetic -/
theorem histogram_constant (hE : E.IsExact) (hq : FiveQuantiles q)
    (hc : ConstantQuantiles q) {p : Project} (hp : p.Sound)
    {sp : ScheduleParams K} (hsp : toScheduleParams E p = ok sp) {s : List Item}
    (hs : ValidSchedule sp s) {v : Int} (h : ConstantRuns E p s v) (hv : 1 ≤ v)
    {binSize : Option Int} (hb : ∀ b ∈ binSize, 1 ≤ b) {makespan : Int}
    (hm : 1 ≤ makespan) {fuel : Nat} (hfuel : 16 ≤ fuel) (zs : List K) :
    ∃ hist, histogram E p binSize s makespan (Stopping.more E q) fuel zs = ok (some hist) :=
  histogram_constant_core hp (fun _ _ _ _ => hE _) hsp hs (fun _ h1 h2 => stops_if_equal hE hq hc hv h1 h2)
    (more_constant hE hq hc hv) h hv hb hm hfuel zs

/-- The bins of equal values: one. -/
theorem describes_constant {w v : Int} {n : Nat} {bins : List Bin} (hw : 1 ≤ w) (hn : 0 < n)
    (h : Describes w (List.replicate n v) bins) :
    bins = [⟨n, v / w * w, v / w * w + w / 2, v / w * w + w⟩] := by
  have hcount : ∀ b ∈ bins, b = ⟨n, v / w * w, v / w * w + w / 2, v / w * w + w⟩ := by
    intro b hb
    have h1 := h.positive b hb
    have h2 := h.counts b hb
    rw [h2] at h1
    obtain ⟨x, hx, hbx⟩ := List.countP_pos_iff.1 (by exact_mod_cast h1 :
      0 < (List.replicate n v).countP fun v => b.Contains v)
    rw [(List.mem_replicate.1 hx).2] at hbx
    have hbv : b.Contains v := by simpa using hbx
    obtain ⟨h3, k, hk⟩ := h.width b hb
    have hk' : v / w = k := by
      have := hbv.1
      have := hbv.2
      rw [h3] at this
      rw [Int.ediv_eq_iff_of_pos (by omega)]
      constructor <;> nlinarith
    have h5 := h.middle b hb
    have h6 : (List.replicate n v).countP (fun v => b.Contains v) = n := by
      rw [List.countP_replicate, if_pos (by simpa using hbv)]
    rw [h6] at h2
    have hlow : b.low = v / w * w := by rw [hk', hk, mul_comm]
    cases b
    simp only [Bin.mk.injEq]
    dsimp only at *
    exact ⟨h2, hlow, by rw [h5, hlow], by rw [h3, hlow]⟩
  match bins, hcount, h with
  | [], _, h =>
    obtain ⟨b, hb, _⟩ := h.covers v (List.mem_replicate.2 ⟨by omega, rfl⟩)
    cases hb
  | [b], hcount, _ => rw [hcount b (by simp)]
  | b :: b' :: rest, hcount, h =>
    have := (List.pairwise_cons.1 h.ascending).1 b' (by simp)
    rw [hcount b (by simp), hcount b' (by simp)] at this
    dsimp only at this
    omega

/-- What the histogram and the percentiles are if all runs give `v` -/
theorem constant_contents {more : List Int → Outcome Bool} {p : Project} {s : List Item} {v w : Int} (hstop : StopsAt16 more v)
    (hcr : ConstantRuns E p s v) (hw1 : 1 ≤ w) {vs : List Int} {k : Nat} (hk : 1 ≤ k) (hlv : vs.length = 10000 * k)
    (hres : ∀ v' ∈ vs, RunResult E p s v')
    (hdec : ∀ j ≥ 1, j ≤ k → more (vs.take (10000 * j)) = ok (decide (j < k))) {bins : List Bin} (hdesc : Describes w vs bins)
    {st : HistogramStats} (hcons : st.Conservative K vs bins) :
    vs = List.replicate (10000 * k) v ∧ k = (if v = 1 then 1 else 16) ∧
    bins = [⟨if v = 1 then 10000 else 160000, v / w * w, v / w * w + w / 2, v / w * w + w⟩] ∧
    st.object = .obj [("p25", .int (v / w * w + w / 2)), ("p50", .int (v / w * w + w / 2)), ("p75", .int (v / w * w + w / 2)),
      ("p95", .int (v / w * w + w / 2)), ("p99", .int (v / w * w + w / 2))] := by
  have hrep : vs = List.replicate (10000 * k) v := by
    rw [← hlv]
    exact hcr.eq_replicate hres
  -- the number of batches
  have hdec' : ∀ j ≥ 1, j ≤ k → j ≤ 16 → (j < k ↔ v ≠ 1 ∧ j < 16) := by
    intro j h1 hjk h16
    have := hdec j h1 hjk
    rw [hrep, take_replicate (Nat.mul_le_mul_left _ hjk), hstop j h1 h16] at this
    have := (Outcome.ok.injEq ..).mp this
    rw [decide_eq_decide] at this
    exact this.symm
  have hk' : k = if v = 1 then 1 else 16 := by
    split_ifs with h1
    · have := hdec' 1 le_rfl hk (by omega)
      omega
    · by_cases hk16 : k ≤ 16
      · have := hdec' k hk le_rfl hk16
        omega
      · have := hdec' 16 (by omega) (by omega) le_rfl
        omega
  have hn : ((10000 * k : Nat) : Int) = if v = 1 then 10000 else 160000 := by
    rw [hk']
    split_ifs <;> norm_num
  rw [hrep] at hdesc
  have hbins := describes_constant hw1 (by omega) hdesc
  rw [hn] at hbins
  refine ⟨hrep, hk', hbins, ?_⟩
  have hpct : ∀ q x, (q, x) ∈ st.percentiles K → x = v / w * w + w / 2 := by
    intro q x hx
    obtain ⟨b, hb, hxb, _⟩ := hcons q x hx
    rw [hbins, List.mem_singleton] at hb
    rw [hxb, hb]
  have hst : st.object = .obj [("p25", .int st.p25), ("p50", .int st.p50), ("p75", .int st.p75),
    ("p95", .int st.p95), ("p99", .int st.p99)] := rfl
  rw [hpct _ st.p25 (by unfold HistogramStats.percentiles; exact .head _),
    hpct _ st.p50 (by unfold HistogramStats.percentiles; exact .tail _ (.head _)),
    hpct _ st.p75 (by unfold HistogramStats.percentiles; exact .tail _ (.tail _ (.head _))),
    hpct _ st.p95 (by unfold HistogramStats.percentiles; exact .tail _ (.tail _ (.tail _ (.head _)))),
    hpct _ st.p99 (by unfold HistogramStats.percentiles; exact .tail _ (.tail _ (.tail _ (.tail _ (.head _)))))]
    at hst
  exact hst

/-- C66 in exact arithmetic. The program without a command, for a project without spread (all minimums equal the maximums) and under the conditions of
`predict_command`. It exits successfully, whatever the random numbers are, and has written the output file once. The
histogram has one bin, in which the makespan of the schedule lies, with 160000 runs (10000 if the makespan is one second), and
all percentiles are the middle of this bin. Missing: single precision, for which it holds up to a day (`float_certain_prediction_partial`)
and not for 30 days (`endless_prediction`). -/
theorem certain_prediction_partial (hE : E.IsExact) (hf : o.filename ≠ "") (hout : o.output ≠ "")
    {root : Yaml} {p : Project} (hs : m.source = .doc root) (hl : load m.readFloat root = ok p)
    (hp : p.Sound) (hmod : p.Moderate) (hw : CanWrite m o) (ht : 0 < m.threads)
    {sp : ScheduleParams K} (hsp : toScheduleParams E p = ok sp)
    (ho : ValidOptions E (o.opt.options sp)) (hbin : ∀ b ∈ o.binSize, 1 ≤ b ∧ b < 2 ^ 31)
    (hperf : ∀ a ∈ p.agents, a.perfMin = a.perfMax) (hdur : ∀ t ∈ p.tasks, t.durMin = t.durMax)
    (hm : m.more = Stopping.more E q) (hq : FiveQuantiles q) (hc : ConstantQuantiles q) :
    ∃ (N : Nat) (s : List Item) (mk : Int) (es : List TaskEntry) (start finish : Nat → K) (V : K)
      (w low n middle : Int),
      ValidSchedule sp s ∧ es.length = s.length ∧
      (∀ (i : Nat) (it : Item) (e : TaskEntry), s[i]? = some it → es[i]? = some e →
        e.Correct E p (p.secondsParams E sp) s start i it ∧ e.start + e.duration ≤ mk) ∧
      Earliest E (p.secondsParams E sp) s start finish ∧ IsEnd s finish V ∧ IsWholePart mk V ∧
      w = resolutionOf o.binSize mk ∧ w ∣ low ∧ low ≤ mk ∧ mk < low + w ∧
      n = (if mk = 1 then 10000 else 160000) ∧ middle = low + w / 2 ∧
      ∀ fuel, N ≤ fuel → ∀ fuel', 16 ≤ fuel' → ∀ zs, ∀ result,
        result = body E { m with fuel := fuel, fuel' := fuel', zs := zs } .predict o →
        status result.flow = .exit 0 ∧ ∃ pre post : List (Effect K), (∀ e ∈ pre ++ post, ¬ e.IsFile) ∧
          result.effects = pre ++ [.file o.output (.obj [
            ("histogram", .obj [("bin_size", .int w), ("bins", .arr [.arr [.int low, .int n]])]),
            ("makespan", .int mk),
            ("stats", .obj [("p25", .int middle), ("p50", .int middle), ("p75", .int middle),
              ("p95", .int middle), ("p99", .int middle)]),
            ("tasks", .arr (es.map TaskEntry.object))])] ++ post := by
  have hfl : p.FloatsIn E := fun _ _ _ _ => hE _
  obtain ⟨N, s, mk, es, start, finish, V, hvs, hlen, hcor, hex, hend, hV, hall⟩ := predict_command hE hf hout hs
    hl hp hmod hw ht hsp ho hbin
  have hcr : ConstantRuns E p s mk := fun sim zs hsim =>
    deterministic_value hp hfl hsp hvs hperf hdur hex hend hV hsim zs
  obtain ⟨hshort, hlong⟩ := moderate_executions hE hp hmod hsp hvs
  have hmk1 : 1 ≤ mk := by
    obtain ⟨it, hit, h⟩ := hlong start finish hex.1
    have h2 := lt_of_le_of_lt (h.trans (hend.1 it hit)) hV.2
    have : (0 : K) < mk := by linarith
    have : 0 < mk := by exact_mod_cast this
    omega
  have hmk31 : mk < 2 ^ 31 := by
    obtain ⟨st, fi, hx, hlt⟩ := hshort
    obtain ⟨it, hit, h⟩ := hend.2
    have h1 := lt_of_le_of_lt ((hex.2 st fi hx it hit).2) (hlt it hit)
    rw [h] at h1
    have h2 : (mk : K) < 2 ^ 31 := lt_of_le_of_lt hV.1 h1
    exact_mod_cast h2
  have hw1 : 1 ≤ resolutionOf o.binSize mk := by
    unfold resolutionOf
    cases hob : o.binSize with
    | none =>
      dsimp only
      split_ifs <;> norm_num
    | some b => exact (hbin b hob).1
  refine ⟨N, s, mk, es, start, finish, V, _, mk / resolutionOf o.binSize mk * resolutionOf o.binSize mk,
    _, _, hvs, hlen, hcor, hex, hend, hV, rfl, Dvd.intro_left _ rfl, Int.ediv_mul_le _ (by omega),
    ?_, rfl, rfl, ?_⟩
  · have := Int.lt_ediv_add_one_mul_self mk (by omega : 0 < resolutionOf o.binSize mk)
    linarith
  intro fuel hN fuel' hfuel' zs result hresult
  have hans : RuleAnswers E p s m.more zs := by
    intro vs _ _ _ _ hvs
    rw [hcr.eq_replicate hvs.result, hm]
    exact more_constant hE hq hc hmk1 _
  rcases hall fuel hN fuel' zs hans result hresult with ⟨_, _, hnone⟩ | ⟨vs, rest, k, bins, st, hk, hlv, hruns, hdec,
    hdesc, hcons, hfin⟩
  · exfalso
    obtain ⟨h, hh⟩ := histogram_constant hE hq hc hp hsp hvs hcr hmk1 (fun b hb => (hbin b hb).1) hmk1
      hfuel' zs
    rw [← hm, hnone] at hh
    cases hh
  · obtain ⟨hrep, hk', hbins, hst⟩ := constant_contents (fun j h1 h2 => by rw [hm]; exact stops_if_equal hE hq hc hmk1 h1 h2)
      hcr hw1 hk hlv hruns.result hdec hdesc hcons
    obtain ⟨hex0, pre, post, hpp, _, heff⟩ := hfin
      (by
        rw [hrep]
        intro v hv
        rw [(List.mem_replicate.1 hv).2]
        exact hmk31)
      (by
        rw [hlv, hk']
        split_ifs <;> norm_num)
    refine ⟨hex0, pre, post, hpp, ?_⟩
    rw [heff, hst, hbins]
    rfl

/-! ### Examples -/

/-- Two agents, three tasks, no spread -/
def Sample.certain : Yaml := Sample.obj [
  ("agents", Sample.obj [
    ("Bob", Sample.obj [("performance", Sample.obj [("min", Sample.str "2"), ("max", Sample.str "2")])]),
    ("Jack", .null)]),
  ("tasks", .seq [
    Sample.obj [("name", Sample.str "walls"), ("id", Sample.str "w"), ("duration", Sample.str "2h")],
    Sample.obj [("name", Sample.str "garden"), ("duration", Sample.str "1h")],
    Sample.obj [("name", Sample.str "paint"), ("duration", Sample.str "45s"),
      ("depends_on", .seq [Sample.str "w"])]])]

def Sample.certainProject : Project where
  agents := [
    { id := 0, name := "Bob", perfMin := .fin 2, perfMax := .fin 2 },
    { id := 1, name := "Jack" }]
  tasks := [
    { name := "walls", id := "w", durMin := 7200, durMax := 7200 },
    { name := "garden", durMin := 3600, durMax := 3600 },
    { name := "paint", dependencies := [0], durMin := 45, durMax := 45 }]

theorem Sample.certain_loads : load Sample.number Sample.certain = ok Sample.certainProject := by
  rw [Load.load_eval 20 _ _ (by decide)]
  decide +kernel

theorem certain_sound : Sample.certainProject.Sound := by
  refine loaded_sound Sample.certain_loads (by decide) ?_ ?_
  · intro a ha
    simp only [Sample.certainProject, List.mem_cons, List.not_mem_nil, or_false] at ha
    rcases ha with rfl | rfl <;> exact ⟨_, _, rfl, rfl⟩
  · intro t ht
    simp only [Sample.certainProject, List.mem_cons, List.not_mem_nil, or_false] at ht
    rcases ht with rfl | rfl | rfl <;> simp [Sample.certainProject, Eligible]

theorem certain_moderate : Sample.certainProject.Moderate where
  longer := by
    refine ⟨_, List.mem_cons_self, ?_⟩
    intro a ha q hq
    simp only [Sample.certainProject, List.mem_cons, List.not_mem_nil, or_false] at ha
    rcases ha with rfl | rfl <;> (cases hq; decide +kernel)
  shorter := by
    intro a ha q hq
    simp only [Sample.certainProject, List.mem_cons, List.not_mem_nil, or_false] at ha
    rcases ha with rfl | rfl <;> (cases hq; decide +kernel)


/-- An estimator: the element of the sorted values at the position of each quantile -/
def exampleQuantiles (vs : List Int) : List ℚ :=
  [25, 50, 75, 95, 99].map fun q => (((vs.mergeSort (· ≤ ·))[vs.length * q / 100]?.getD 0 : Int) : ℚ)

theorem exampleQuantiles_five : FiveQuantiles exampleQuantiles := fun _ => rfl

theorem exampleQuantiles_constant : ConstantQuantiles exampleQuantiles := by
  intro n v hn
  have hs : (List.replicate n v).mergeSort (· ≤ ·) = List.replicate n v := by
    rw [List.eq_replicate_iff]
    refine ⟨by simp, fun b hb => ?_⟩
    rw [List.mem_mergeSort] at hb
    exact (List.mem_replicate.1 hb).2
  unfold exampleQuantiles
  rw [hs, List.length_replicate]
  have h : ∀ q : Nat, q < 100 → (List.replicate n v)[n * q / 100]?.getD 0 = v := by
    intro q hq
    rw [List.getElem?_replicate, if_pos]
    · rfl
    · rw [Nat.div_lt_iff_lt_mul (by norm_num)]
      exact Nat.mul_lt_mul_of_pos_left hq (by omega)
  simp only [List.map_cons, List.map_nil]
  rw [h 25 (by norm_num), h 50 (by norm_num), h 75 (by norm_num), h 95 (by norm_num), h 99 (by norm_num)]
  rfl

/-- C66 applies: the program ends and has written one file. -/
example (draws : Nat → Nat → Nat → Draws ℚ) : ∃ N, ∀ fuel, N ≤ fuel → ∀ fuel', 16 ≤ fuel' → ∀ zs,
    status (body FloatEnv.rat { exampleMachine draws with
      source := .doc Sample.certain, more := Stopping.more FloatEnv.rat exampleQuantiles,
      fuel := fuel, fuel' := fuel', zs := zs } .predict cliOptions).flow = .exit 0 := by
  obtain ⟨sp, hsp, hw⟩ := params_wellFormed (E := FloatEnv.rat) certain_sound (fun _ _ _ _ => rfl)
  obtain ⟨N, _, _, _, _, _, _, _, _, _, _, _, _, _, _, _, _, _, _, _, _, _, _, h⟩ := certain_prediction_partial
    (m := { exampleMachine draws with
      source := .doc Sample.certain, more := Stopping.more FloatEnv.rat exampleQuantiles })
    (fun _ => rfl) (by decide) (by decide) rfl Sample.certain_loads certain_sound certain_moderate (example_canWrite (draws := draws))
    (by exact (by decide : 0 < 4)) hsp (cliOptions_valid hw) (by intro b hb; cases hb)
    (by
      intro a ha
      simp only [Sample.certainProject, List.mem_cons, List.not_mem_nil, or_false] at ha
      rcases ha with rfl | rfl <;> rfl)
    (by
      intro t ht
      simp only [Sample.certainProject, List.mem_cons, List.not_mem_nil, or_false] at ht
      rcases ht with rfl | rfl | rfl <;> rfl)
    rfl exampleQuantiles_five exampleQuantiles_constant
  exact ⟨N, fun fuel hN fuel' hf zs => (h fuel hN fuel' hf zs _ rfl).1⟩

/-- C64 applies to the example document `plan`: its simulation goes on or the output file is written. -/
example (draws : Nat → Nat → Nat → Draws ℚ) : ∃ N, ∀ fuel, N ≤ fuel → ∀ fuel' zs,
    ∃ result, result = body FloatEnv.rat { exampleMachine draws with
      fuel := fuel, fuel' := fuel', zs := zs } .predict cliOptions ∧
    ((∀ e ∈ result.effects, ¬ e.IsFile) ∨ ∃ vs : List Int, vs.length = 10000) := by
  obtain ⟨sp, hsp, hw⟩ := params_wellFormed (E := FloatEnv.rat) plan_sound (fun _ _ _ _ => rfl)
  obtain ⟨N, _, _, _, _, _, _, _, _, _, _, _, _, h⟩ := predict_command (m := exampleMachine draws)
    (fun _ => rfl) (by decide) (by decide) rfl Sample.plan_loads plan_sound plan_moderate example_canWrite
    (by exact (by decide : 0 < 4)) hsp (cliOptions_valid hw) (by intro b hb; cases hb)
  refine ⟨N, fun fuel hN fuel' zs => ⟨_, rfl, ?_⟩⟩
  rcases h fuel hN fuel' zs (fun _ _ _ _ _ _ => ⟨_, rfl⟩) _ rfl with ⟨_, h, _⟩ | ⟨vs, _, k, _, _, hk, hl, _, hdec, _⟩
  · exact .inl h
  · refine .inr ⟨vs, ?_⟩
    have := hdec 1 le_rfl hk
    have : k = 1 := by
      have := (Outcome.ok.injEq ..).mp this
      have : ¬ 1 < k := by simpa using this.symm
      omega
    rw [hl, this]

end Angonoka.Props
