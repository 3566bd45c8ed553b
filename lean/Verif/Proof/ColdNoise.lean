import Verif.Spec.ColdNoise
import Verif.Proof.ColdRun
/-!
# Proofs for the noise test of COLD
-/
namespace Pycold.Cold

open Spec

variable {V W : Type}

theorem ok_bind {A B : Type} {x : Except Err A} {f : A → Except Err B} {r : B} (h : (x >>= f) = .ok r) :
    ∃ a, x = .ok a ∧ f a = .ok r := by
  cases x with
  | error e => cases h
  | ok a => exact ⟨a, rfl, h⟩

theorem chk_bound {e lo hi : Int} {u : Unit} (h : chk e lo hi = .ok u) : 0 ≤ lo ∧ hi < e := by
  unfold chk at h
  split at h
  · assumption
  · cases h

theorem isOutlier_iff (N : Num V W) (w : List (Score V W)) : isOutlier N w = true ↔ FirstExceeds N w := by
  cases w with
  | nil => simp [isOutlier, FirstExceeds]
  | cons x xs => simp [isOutlier, FirstExceeds]

theorem reached_inv {P : Params} {N : Num V W} {ω : Oracle V W} {dates : List Int} {nCm : Nat} (hc : 1 ≤ P.conse)
    (hs : CmSized P dates nCm) (hd : dates.Pairwise (· < ·)) {s : St V W} (h : Reached P N ω dates nCm s) : Inv P N dates nCm s := by
  induction h with
  | start => exact init_inv nCm hd
  | step _ room e ih =>
    obtain ⟨s', h1, h2, _⟩ := body_ok hc hs ω ih room
    rw [h1] at e
    cases e
    exact h2

/-- The outcome of one monitoring step. -/
structure Stepped (P : Params) (N : Num V W) (m s' : St V W) (w : List (Score V W)) : Prop where
  len : w.length = P.conse
  dates : w.map Score.date = ((kept m.clrx m.end_).drop m.i.toNat).take P.conse
  confirmed : Confirmed N w → kept s'.clrx s'.end_ = kept m.clrx m.end_ ∧
    ∃ r, s'.recs = m.recs ++ [r] ∧ r.window = w ∧ w.head?.map Score.date = some r.tBreak
  other : ¬ Confirmed N w → s'.recs = m.recs
  noise : ¬ Confirmed N w → FirstExceeds N w → kept s'.clrx s'.end_ = (kept m.clrx m.end_).eraseIdx m.i.toNat
  stays : ¬ Confirmed N w → ¬ FirstExceeds N w → kept s'.clrx s'.end_ = kept m.clrx m.end_

theorem monitor_stepped {P : Params} {N : Num V W} {dates : List Int} {nCm : Nat} (hc : 1 ≤ P.conse) (hN : Ordered N)
    (ω : Oracle V W) {s s' : St V W} (h : Base P N dates nCm s)
    (room : s.i ≤ s.end_ - P.conse) (span : 12 ≤ s.i - s.iStart + 1)
    (hst : s.iCount = some 0 ∨ TrainInv P N s) (e : monitorPhase P N ω s = .ok s') : ∃ w, Stepped P N s s' w := by
  obtain ⟨ic, pe, l, skip, cur, sc, href, hR⟩ := refresh_ok hc ω h room span hst
  have hs1 := h.start
  have hele := h.arr.ele
  have hll := h.arr.llen
  have hsclen : sc.length = P.conse := by
    have := congrArg List.length hR.dates
    simp only [List.length_map, List.length_take, List.length_drop] at this
    omega
  have hhead : sc.head?.map Score.date = some (nth (live s.clrx s.end_) s.i) := by
    have : (sc.map Score.date).head? = some (nth (live s.clrx s.end_) s.i) := by
      rw [hR.dates, drop_take_eq_range (by omega) (by omega)]
      obtain ⟨m, hm⟩ : ∃ m, P.conse = m + 1 := ⟨P.conse - 1, by omega⟩
      rw [hm, List.range_succ_eq_map]
      simp
    rw [← this, List.head?_map]
  unfold monitorPhase at e
  rw [href] at e
  obtain ⟨d, hd, e⟩ := ok_bind (x := rd _ _ _) e
  obtain ⟨cm, hcm, e⟩ := ok_bind e
  dsimp only at hd
  rw [h.arr.rd (by omega) (by omega)] at hd
  cases hd
  have hb := isBreak_iff hN sc
  have ho := isOutlier_iff N sc
  refine ⟨sc, hsclen, hR.dates, ?_, ?_, ?_, ?_⟩
  · intro hcf
    rw [if_pos (hb.2 hcf)] at e
    cases e
    exact ⟨rfl, _, rfl, rfl, hhead⟩
  · intro hcf
    rw [if_neg (fun x => hcf (hb.1 x))] at e
    by_cases hx : isOutlier N sc = true
    · rw [if_pos hx] at e; cases e; rfl
    · rw [if_neg hx] at e; cases e; rfl
  · intro hcf hx
    rw [if_neg (fun x => hcf (hb.1 x)), if_pos (ho.2 hx)] at e
    cases e
    exact live_shiftDown (clrx := s.clrx) (e := s.end_) (k := s.i) (by omega) (by omega) hele
  · intro hcf hx
    rw [if_neg (fun x => hcf (hb.1 x)), if_neg (fun x => hx (ho.1 x))] at e
    cases e
    rfl

theorem lookBack_spec {P : Params} {N : Num V W} (hc : 1 ≤ P.conse) (hN : Ordered N) (ω : Oracle V W) (it : Nat) :
    ∀ (n : Nat) (iBreak iIni : Int) (b b' : LB V W), (iIni - (iBreak - 1) + 1).toNat = n → 1 ≤ iBreak → b.iStart = iIni + 2 →
      iIni + 1 < b.end_ → b.end_ ≤ b.clrx.length → lookBack P N ω it iBreak iIni b = .ok b' →
      LookBack N P.conse (ω.lbScore it) (iBreak - 1) iIni (kept b.clrx b.end_) (kept b'.clrx b'.end_) b'.iStart := by
  intro n
  induction n using Nat.strongRecOn with
  | _ n ih =>
    intro iBreak iIni b b' hn h1 h3 h4 hele e
    rw [lookBack] at e
    by_cases hge : iIni ≥ iBreak - 1
    · rw [if_pos hge] at e
      dsimp only at e
      generalize hini : (if iIni - (iBreak - 1) + 1 < (P.conse : Int) then iIni - (iBreak - 1) + 1
        else (P.conse : Int)) = ini at e
      have hini' : ini = min (iIni + 2 - iBreak) P.conse := by
        rw [← hini]; split <;> omega
      rw [if_neg (by omega)] at e
      obtain ⟨_, hchk, e⟩ := ok_bind e
      obtain ⟨cm, hcm, e⟩ := ok_bind e
      generalize hsc : (List.range ini.toNat).map (fun (k : Nat) =>
        Score.mk (b.clrx.getD (iIni - (k : Int)).toNat 0) (ω.lbScore it iIni k).1
          (ω.lbScore it iIni k).2) = sc at e
      have hlen : sc.length = min (iIni - (iBreak - 1) + 1).toNat P.conse := by
        rw [← hsc, List.length_map, List.length_range]; omega
      have hw : ∀ (j : Nat) x, sc[j]? = some x → (kept b.clrx b.end_)[(iIni - j).toNat]? = some x.date ∧ (x.mag, x.vec) = ω.lbScore it iIni j := by
        intro j x hx
        have hj : j < ini.toNat := by
          have := (List.getElem?_eq_some_iff.1 hx).1
          rw [← hsc, List.length_map, List.length_range] at this
          exact this
        rw [← hsc, List.getElem?_map, List.getElem?_range hj] at hx
        cases hx
        refine ⟨?_, rfl⟩
        show (b.clrx.take b.end_.toNat)[_]? = some (b.clrx.getD _ 0)
        rw [List.getElem?_take_of_lt (by omega), List.getD_eq_getElem?_getD, List.getElem?_eq_getElem (by omega)]
        rfl
      have hb := isBreak_iff hN sc
      have ho := isOutlier_iff N sc
      by_cases hbr : isBreak N sc = true
      · rw [if_pos hbr] at e
        cases e
        dsimp only
        rw [h3]
        exact .found hge ⟨hlen, hw⟩ (hb.1 hbr)
      · rw [if_neg hbr] at e
        by_cases hout : isOutlier N sc = true
        · rw [if_pos hout] at e
          have := ih (iIni - 1 - (iBreak - 1) + 1).toNat (by omega) iBreak (iIni - 1) _ b' rfl h1
            (by dsimp only; omega) (by dsimp only; omega) (by dsimp only; rw [shiftDown_length]; omega) e
          dsimp only at this
          have hl : kept (shiftDown b.clrx iIni.toNat (b.end_ - 1).toNat) (b.end_ - 1) = (kept b.clrx b.end_).eraseIdx iIni.toNat :=
            live_shiftDown (by omega) (by omega) hele
          rw [hl] at this
          exact .noise hge ⟨hlen, hw⟩ (fun x => hbr (hb.2 x)) (ho.1 hout) this
        · rw [if_neg hout] at e
          have := ih (iIni - 1 - (iBreak - 1) + 1).toNat (by omega) iBreak (iIni - 1) _ b' rfl h1
            (by dsimp only; omega) (by dsimp only; omega) (by dsimp only; omega) e
          exact .joins hge ⟨hlen, hw⟩ (fun x => hbr (hb.2 x)) (fun x => hout (ho.2 x)) this
    · rw [if_neg hge] at e
      cases e
      rw [h3]
      exact .done (by omega)

theorem compact_zipIdx : ∀ (l : List Int) (k : Nat) (rm : List Int), rm.Pairwise (· < ·) → (∀ r ∈ rm, (k : Int) ≤ r) →
    compact l k rm = ((l.zipIdx k).filter fun x => decide ((x.2 : Int) ∉ rm)).map (·.1)
  | [], _, _, _, _ => by simp [compact]
  | x :: xs, k, [], _, _ => by
    have := compact_zipIdx xs (k + 1) [] List.Pairwise.nil (by simp)
    rw [compact, show ((k : Int) + 1) = ((k + 1 : Nat) : Int) by omega, this]
    simp
  | x :: xs, k, r :: rs, hp, hk => by
    rw [List.pairwise_cons] at hp
    have hr := hk r List.mem_cons_self
    rw [compact, show ((k : Int) + 1) = ((k + 1 : Nat) : Int) by omega]
    by_cases h : (k : Int) = r
    · rw [if_pos h, compact_zipIdx xs (k + 1) rs hp.2 (fun q hq => by have := hp.1 q hq; omega), List.zipIdx_cons, List.filter_cons,
        if_neg (by simp [h])]
      congr 1
      refine List.filter_congr fun y hy => ?_
      have := List.le_snd_of_mem_zipIdx hy
      rw [decide_eq_decide, List.mem_cons, not_or]
      exact ⟨fun g => ⟨by omega, g⟩, fun g => g.2⟩
    · rw [if_neg h, compact_zipIdx xs (k + 1) (r :: rs) (List.pairwise_cons.2 hp) (fun q hq => by
        rcases List.mem_cons.1 hq with e | e
        · omega
        · have := hp.1 q e; omega), List.zipIdx_cons, List.filter_cons, if_pos, List.map_cons]
      rw [decide_eq_true_eq, List.mem_cons, not_or]
      refine ⟨h, fun g => ?_⟩
      have := hp.1 _ g
      dsimp only at this
      omega

theorem compact_filter {L : List Int} {mask : Nat → Bool} {iStart i : Int} (h1 : 1 ≤ iStart) (h2 : 12 ≤ i - iStart + 1) :
    compact L 0 (rmIds mask (iStart - 1) (i - iStart + 1).toNat) =
      ((L.zipIdx).filter fun x => !(decide (iStart - 1 ≤ x.2 ∧ (x.2 : Int) < i) && mask (x.2 - (iStart - 1).toNat))).map (·.1) := by
  have hp : (rmIds mask (iStart - 1) (i - iStart + 1).toNat).Pairwise (· < ·) := by
    rw [rmIds, List.pairwise_map]
    refine (List.pairwise_lt_range.sublist List.filter_sublist).imp ?_
    intro a b hab
    omega
  have hk : ∀ r ∈ rmIds mask (iStart - 1) (i - iStart + 1).toNat, ((0 : Nat) : Int) ≤ r := by
    intro r hr
    obtain ⟨k, _, rfl⟩ := List.mem_map.1 hr
    omega
  have := compact_zipIdx L 0 _ hp hk
  rw [show ((0 : Nat) : Int) = 0 from rfl] at this
  rw [this]
  congr 1
  refine List.filter_congr fun x _ => ?_
  rw [Bool.eq_iff_iff, decide_eq_true_eq, Bool.not_eq_true', Bool.and_eq_false_iff, decide_eq_false_iff_not]
  have hmem : (x.2 : Int) ∈ rmIds mask (iStart - 1) (i - iStart + 1).toNat ↔
      (iStart - 1 ≤ x.2 ∧ (x.2 : Int) < i) ∧ mask (x.2 - (iStart - 1).toNat) = true := by
    rw [rmIds, List.mem_map]
    constructor
    · rintro ⟨k, hk, e⟩
      rw [List.mem_filter, List.mem_range] at hk
      have : x.2 - (iStart - 1).toNat = k := by omega
      rw [this]
      exact ⟨⟨by omega, by omega⟩, hk.2⟩
    · rintro ⟨⟨g1, g2⟩, g3⟩
      exact ⟨x.2 - (iStart - 1).toNat, List.mem_filter.2 ⟨List.mem_range.2 (by omega), g3⟩, by omega⟩
  rw [hmem]
  generalize mask (x.2 - (iStart - 1).toNat) = q
  cases q <;> simp

theorem findBreak_earliest {s : St V W} (hele : s.end_ ≤ s.clrx.length) {b : Int} (e : findBreak s = .ok b) :
    Earliest s.recs s.iDense (kept s.clrx s.end_) b := by
  unfold findBreak at e
  cases hg : s.recs.getLast? with
  | none =>
    rw [hg] at e
    cases e
    refine ⟨fun _ => rfl, fun r hr => ?_⟩
    rw [hg] at hr
    cases hr
  | some l =>
    rw [hg] at e
    dsimp only at e
    refine ⟨fun h => (by rw [h] at hg; simp at hg), ?_⟩
    intro r hr
    rw [hg] at hr
    cases hr
    have key : ∀ (k : Nat) (m : Nat), findGe s.clrx l.tBreak s.end_.toNat k = some m → m < s.end_.toNat ∧ l.tBreak ≤ s.clrx.getD m 0 ∧
        ∀ q, k ≤ q → q < m → s.clrx.getD q 0 < l.tBreak := by
      intro k m
      fun_induction findGe s.clrx l.tBreak s.end_.toNat k with
      | case1 k hk hnone => intro h; cases h
      | case2 k hk v hsome hge =>
        intro h; cases h
        exact ⟨hk, by simpa [hsome] using hge, fun q h1 h2 => by omega⟩
      | case3 k hk v hsome hlt ih =>
        intro h
        obtain ⟨h1, h2, h3⟩ := ih h
        refine ⟨h1, h2, fun q hq1 hq2 => ?_⟩
        by_cases hqk : q = k
        · subst hqk; simp [hsome]; omega
        · exact h3 q (by omega) hq2
      | case4 k hk => intro h; cases h
    cases hf : findGe s.clrx l.tBreak s.end_.toNat 0 with
    | none => rw [hf] at e; cases e
    | some m =>
      rw [hf] at e
      cases e
      obtain ⟨h1, h2, h3⟩ := key 0 m hf
      have hk : ∀ q : Nat, q < s.end_.toNat → (kept s.clrx s.end_).getD q 0 = s.clrx.getD q 0 := by
        intro q hq
        rw [List.getD_eq_getElem?_getD, List.getD_eq_getElem?_getD]
        show ((s.clrx.take s.end_.toNat)[q]?).getD 0 = _
        rw [List.getElem?_take_of_lt hq]
      have e1 : ((m : Int) + 1 - 1).toNat = m := by omega
      refine ⟨by omega, ?_, ?_⟩
      · rw [e1, hk m h1]; exact h2
      · intro q hq
        rw [e1] at hq
        rw [hk q (by omega)]
        exact h3 q (by omega) hq

theorem firstCurve_same {P : Params} {s s' : St V W} {ini : Option Int} {tested : List (Score V W)} (e : firstCurve P s ini tested = .ok s') :
    s'.clrx = s.clrx ∧ s'.end_ = s.end_ ∧ s'.iStart = s.iStart := by
  unfold firstCurve at e
  split at e
  · obtain ⟨_, _, e⟩ := ok_bind e
    obtain ⟨_, _, e⟩ := ok_bind e
    obtain ⟨_, _, e⟩ := ok_bind e
    obtain ⟨_, _, e⟩ := ok_bind e
    cases ini with
    | none => cases e
    | some c =>
      dsimp only at e
      split at e
      · cases e; exact ⟨rfl, rfl, rfl⟩
      · cases e
  · cases e; exact ⟨rfl, rfl, rfl⟩

/-- What a successful initialisation does to the observations. -/
theorem train_lookBack {P : Params} {N : Num V W} {dates : List Int} {nCm : Nat} (hc : 1 ≤ P.conse) (hN : Ordered N)
    (ω : Oracle V W) {s m : St V W} (h : Base P N dates nCm s) (room : s.i ≤ s.end_ - P.conse) (span : 12 ≤ s.i - s.iStart + 1)
    (e : trainPhase P N ω s = .ok (true, m)) :
    ∃ obs place, obs = compact (kept s.clrx s.end_) 0 (rmIds (ω.mask s.it) (s.iStart - 1) (s.i - s.iStart + 1).toNat) ∧
      Earliest s.recs s.iDense obs place ∧
      LookBack N P.conse (ω.lbScore s.it) (place - 1) (s.iStart - 2) obs (kept m.clrx m.end_) m.iStart := by
  have hst := h.start
  have hele := h.arr.ele
  have hll := h.arr.llen
  unfold trainPhase at e
  obtain ⟨g, _, e⟩ := ok_bind e
  split at e
  · cases e
  obtain ⟨_, _, e⟩ := ok_bind e
  dsimp only at e
  split at e
  · cases e
  rename_i hkept
  obtain ⟨a, ha, e⟩ := ok_bind e
  obtain ⟨b, hb, e⟩ := ok_bind e
  split at e
  · cases e
  obtain ⟨_, hck, e⟩ := ok_bind e
  split at e
  · cases e
  obtain ⟨iBreak, hbr, e⟩ := ok_bind e
  obtain ⟨⟨s1, ini, tested⟩, hlb, e⟩ := ok_bind e
  obtain ⟨s2, hfc, e⟩ := ok_bind e
  cases e
  obtain ⟨f1, f2, f3⟩ := firstCurve_same hfc
  rw [f1, f2, f3]
  change findBreak _ = _ at hbr
  generalize hobs : compact (s.clrx.take s.end_.toNat) 0 (rmIds (ω.mask s.it) (s.iStart - 1) (s.i - s.iStart + 1).toNat) = cpx at *
  have hsub : cpx.length ≤ s.clrx.length := by
    obtain ⟨b0, hb0⟩ : ∃ b0 : Nat, s.iStart - 1 = (b0 : Int) := ⟨(s.iStart - 1).toNat, by omega⟩
    have hcp := compact_rmIds (ω.mask s.it) (live s.clrx s.end_) b0 (s.i - s.iStart + 1).toNat (by omega)
    rw [← hb0] at hcp
    have hKsub := (keep_sublist (ω.mask s.it) (((live s.clrx s.end_).drop b0).take (s.i - s.iStart + 1).toNat) 0).length_le
    have this := congrArg List.length (hobs.symm.trans hcp)
    simp only [List.length_append, List.length_take, List.length_drop] at this hKsub
    omega
  have hlive : kept (commit s.clrx cpx) cpx.length = cpx := live_commit s.clrx cpx
  have hE := findBreak_earliest (by dsimp only; rw [commit_length hsub]; omega) hbr
  dsimp only at hE
  rw [hlive] at hE
  refine ⟨cpx, iBreak, hobs.symm, hE, ?_⟩
  have hcplen := chk_bound hck
  unfold doLookBack at hlb
  dsimp only at hlb
  split at hlb
  · rename_i hgt
    obtain ⟨b', hb', hlb⟩ := ok_bind hlb
    cases hlb
    have hpos : 1 ≤ iBreak := by
      by_cases hn : s.recs = []
      · rw [hE.1 hn]; exact h.dense
      · cases hg : s.recs.getLast? with
        | none => exact absurd (List.getLast?_eq_none_iff.1 hg) hn
        | some r => exact (hE.2 r hg).1
    have := lookBack_spec hc hN ω s.it _ iBreak (s.iStart - 2) _ b' rfl hpos (by dsimp only; omega)
      (by dsimp only [MIN_OBS] at hkept ⊢; omega) (by dsimp only; rw [commit_length hsub]; omega) hb'
    dsimp only at this
    rw [hlive] at this
    exact this
  · cases hlb
    rw [hlive]
    have := LookBack.done (N := N) (conse := P.conse) (score := ω.lbScore s.it) (stop := iBreak - 1) (k := s.iStart - 2) (obs := cpx) (by omega)
    rw [show s.iStart - 2 + 2 = s.iStart by omega] at this
    exact this

end Pycold.Cold
