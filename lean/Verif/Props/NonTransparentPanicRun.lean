import Verif.NonTransparent.PanicRun
import Verif.Props.NonTransparentCalls
import Verif.Spec.NonTransparentPanic

/-! # A call of `Parse` whose listener may panic, against the specification -/

namespace Verif.Props
open NT Verif.Spec Verif.NonTransparent
namespace NT

section
variable {stop : Stop} {be : Bool} {t : UInt8}

/-- a candidate starts with `<` -/
def Lt (m : Machine) : Prop := m.candidate = [] ∨ m.candidate.head? = some 60

theorem strip_lt (ht : t ≠ 60) {c : Bytes} (hc : c.head? = some 60) : strip t c ≠ [] ∧ (strip t c).head? = some 60 := by
  unfold strip
  by_cases hl : c.getLast? = some t
  · rw [if_pos hl]
    match c, hc with
    | [x], hc => simp at hc hl; exact absurd (hl.symm.trans hc) ht
    | x :: y :: z, hc => refine ⟨by simp, ?_⟩; simpa using hc
  · rw [if_neg hl]
    refine ⟨?_, hc⟩
    rintro rfl
    simp at hc

theorem cand_lt {m : Machine} (hl : Lt m) (h : m.candidate ≠ []) : m.candidate.head? = some 60 := by
  rcases hl with hl | hl
  · exact absurd hl h
  · exact hl

theorem kept_left (ht : t ≠ 60) {m : Machine} (hl : Lt m) (h : m.candidate ≠ []) (i : Rfc5424.M) :
    keptOf (leftAt be t m i) = ⟨some (without t m.candidate), (keptOf m).rest⟩ ∧ Lt (leftAt be t m i) := by
  obtain ⟨h1, h2⟩ := strip_lt ht (cand_lt hl h)
  refine ⟨?_, Or.inr h2⟩
  have : (keptOf (leftAt be t m i)).message = some (without t m.candidate) := by
    show (if strip t m.candidate = [] then none else some (strip t m.candidate)) = _
    rw [if_neg h1]; rfl
  show (⟨(keptOf (leftAt be t m i)).message, (keptOf m).rest⟩ : Kept ReadErr) = _
  rw [this]

theorem kept_message {m : Machine} (h : m.candidate ≠ []) : (keptOf m).message = some m.candidate := by
  simp [keptOf, h]

/-- the end of a call: `OnCompletion`, when the reports `done` have been made -/
theorem completion (ht : t ≠ 60) {o : List Result} {m : Machine} (h : Inv be t m) (hl : Lt m) {done : List (Report ReadErr)}
    (ho : m.out = o ++ done.map (resultFor be)) (hcalm : Calm stop o (done.map (resultFor be))) :
    (∃ m', m.onCompletionP stop = .ok m' ∧ m.onCompletion = some m' ∧
      m'.out = o ++ (done ++ (again t (keptOf m) ++ ((keptOf m).rest.map fun p => Report.cut p.1 p.2).toList)).map (resultFor be) ∧
      Calm stop o ((done ++ (again t (keptOf m) ++ ((keptOf m).rest.map fun p => Report.cut p.1 p.2).toList)).map (resultFor be))) ∨
    (∃ w y, (keptOf m).message = some w ∧ m.onCompletionP stop = .panic y ∧ keptOf y = ⟨some (without t w), (keptOf m).rest⟩ ∧ Inv be t y ∧ Lt y ∧
      y.out = o ++ (done ++ [Report.whole (without t w)]).map (resultFor be) ∧
      StopsFirst stop o (done.map (resultFor be)) (resultFor be (.whole (without t w)))) ∨
    (∃ w e' y, (keptOf m).rest = some (w, e') ∧ m.onCompletionP stop = .panic y ∧ m.onCompletion = some y ∧
      y.out = o ++ (done ++ again t (keptOf m) ++ [Report.cut w e']).map (resultFor be) ∧
      StopsFirst stop o ((done ++ again t (keptOf m)).map (resultFor be)) (resultFor be (.cut w e'))) := by
  obtain ⟨p1, p2⟩ := onCompletionP_spec (stop := stop) h
  by_cases hs : stopsAt stop be t m
  · right; left
    obtain ⟨i, a1, a2⟩ := p1 hs
    obtain ⟨k1, k2⟩ := kept_left (be := be) ht hl hs.1 i
    refine ⟨m.candidate, _, kept_message hs.1, a1, k1, a2, k2, ?_, hcalm, ?_⟩
    · simp only [leftAt, ho, List.map_append, List.map_cons, List.map_nil, List.append_assoc]; rfl
    · have := hs.2
      rw [ho, List.append_assoc] at this
      exact this
  · obtain ⟨m', a1, a2, a3, a4, a5, a6, a7⟩ := p2 hs
    have hag : Calm stop o ((done ++ again t (keptOf m)).map (resultFor be)) := by
      rw [List.map_append]
      refine calm_append hcalm ?_
      rw [← pend_again, ← ho]
      unfold pend
      by_cases hc : m.candidate = []
      · rw [if_pos hc]; exact calm_nil _ _
      · rw [if_neg hc]
        apply calm_one
        cases hh : stop (m.out ++ [pmsg be (strip t m.candidate)]) with
        | false => rfl
        | true => exact absurd ⟨hc, hh⟩ hs
    rw [stale_eq] at a6 a7
    rw [pend_again] at a6
    cases hr : (keptOf m).rest with
    | none =>
      left
      rw [hr] at a7
      simp only [Option.map_none, Option.toList_none, List.map_nil, ne_eq, not_true_eq_false, false_and, if_false] at a7
      refine ⟨m', a7, a1, ?_, ?_⟩
      · rw [a6, ho, hr]; simp
      · simp only [Option.map_none, Option.toList_none, List.append_nil]
        exact hag
    | some p =>
      obtain ⟨w, e'⟩ := p
      rw [hr] at a6 a7
      simp only [Option.map_some, Option.toList_some, List.map_cons, List.map_nil] at a6 a7
      have hout : m'.out = o ++ (done ++ again t (keptOf m) ++ [Report.cut w e']).map (resultFor be) := by
        rw [a6, ho]; simp
      by_cases hst : stop m'.out = true
      · rw [if_pos ⟨by simp, hst⟩] at a7
        right; right
        refine ⟨w, e', m', rfl, a7, a1, hout, hag, ?_⟩
        rw [hout] at hst
        rw [List.map_append] at hst
        exact hst
      · rw [if_neg (fun hh => hst hh.2)] at a7
        left
        refine ⟨m', a7, a1, by rw [hout]; simp, ?_⟩
        have : (done ++ (again t (keptOf m) ++ (some (w, e') |>.map fun p => Report.cut p.1 p.2).toList)).map (resultFor be) =
            (done ++ again t (keptOf m)).map (resultFor be) ++ [resultFor be (.cut w e')] := by simp
        rw [this]
        refine calm_append hag (calm_one ?_)
        rw [hout] at hst
        simpa using hst

theorem lastReport_eq (l : Loop) (e : ReadErr) (k : Kept ReadErr) (rest : Bytes) :
    lastReport l e k rest = ((nextRest l e k rest).map fun p => Report.cut p.1 p.2).toList := by
  unfold lastReport nextRest
  by_cases h : rest = []
  · simp only [h, ne_eq, not_true_eq_false, if_false]
    split <;> rfl
  · simp [h]

/-- the reports of the texts -/
theorem texts_reports (m : Machine) (gs : List (List Bytes)) (ms : List Bytes) (hg : gs.map List.flatten = ms.map (· ++ [t])) :
    (texts m.candidate gs).map (fun w => (Report.whole (strip t w) : Report ReadErr)) = again t (keptOf m) ++ ms.map .whole := by
  rw [texts, hg, List.map_append, List.map_map]
  congr 1
  · by_cases h : m.candidate = []
    · simp [h, again, keptOf]
    · simp [h, again, keptOf]; rfl
  · apply List.map_congr_left
    intro x _
    simp only [Function.comp, strip_frame]

theorem res_report (w : Bytes) : resultFor be (Report.whole (strip t w)) = res be t w := rfl

/-- the call, when what happens before `OnCompletion` is known -/
theorem finish (ht : t ≠ 60) {d : Driver} {e : ReadErr} {bytes : Bytes} {m m2 : Machine} {k' : Kept ReadErr} {T D : List (Report ReadErr)}
    {reps : List (Report ReadErr)} (hcall : Call (loopOf d) t e (keptOf m) bytes reps k') (h : Inv be t m)
    (hcand : Lt m) (hreps : reps = T ++ ((keptOf m2).rest.map fun p => Report.cut p.1 p.2).toList)
    (hT : D ++ again t (keptOf m2) = T) (ho : m2.out = m.out ++ D.map (resultFor be)) (hc : Calm stop m.out (D.map (resultFor be)))
    (hi : Inv be t m2) (hl : Lt m2) (hP : m.parseP stop d bytes e = m2.onCompletionP stop) (hM : m.parse d bytes e = m2.onCompletion)
    (hpc : ∀ w, (keptOf m2).message = some w → T = D ++ [Report.whole (without t w)] →
      PanicCall (loopOf d) t e (keptOf m) bytes T ⟨some (without t w), (keptOf m2).rest⟩) :
    ∃ m', m.parse d bytes e = some m' ∧ keptOf m' = k' ∧ Inv be t m' ∧ Lt m' ∧ m'.out = m.out ++ reps.map (resultFor be) ∧
      ((Calm stop m.out (reps.map (resultFor be)) ∧ m.parseP stop d bytes e = .ok m') ∨
       ∃ a r b y, reps = a ++ r :: b ∧ PanicCall (loopOf d) t e (keptOf m) bytes (a ++ [r]) (keptOf y) ∧
        StopsFirst stop m.out (a.map (resultFor be)) (resultFor be r) ∧ m.parseP stop d bytes e = .panic y ∧ Inv be t y ∧ Lt y ∧
        y.out = m.out ++ (a ++ [r]).map (resultFor be)) := by
  obtain ⟨m', c1, c2, c3, c4, c5⟩ := call_of_spec hcall m h rfl hcand
  refine ⟨m', c1, c4, c2, c5, c3, ?_⟩
  rcases completion ht hi hl ho hc with ⟨x, a1, a2, a3, a4⟩ | ⟨w, y, a1, a2, a3, a4, a5, a6, a7⟩ | ⟨w, e', y, a1, a2, a3, a4, a5⟩
  · left
    rw [hM, a2] at c1
    cases c1
    refine ⟨?_, by rw [hP, a1]⟩
    rw [← List.append_assoc, hT, ← hreps] at a4
    exact a4
  · right
    have hw : T = D ++ [Report.whole (without t w)] := by
      rw [← hT, again, a1]; rfl
    refine ⟨D, .whole (without t w), _, y, by rw [hreps, hw, List.append_assoc]; rfl, ?_, a7, by rw [hP, a2], a4, a5, a6⟩
    rw [a3, ← hw]
    exact hpc w a1 hw
  · right
    rw [hM, a3] at c1
    cases c1
    rw [hT] at a4 a5
    have hr : reps = T ++ [Report.cut w e'] := by rw [hreps, a1]; rfl
    refine ⟨T, .cut w e', [], m', hr, ?_, a5, by rw [hP, a2], c2, c5, a4⟩
    rw [c4]
    rw [hr] at hcall
    exact .rest hcall

/-- A call of `Parse` with a listener that may panic, from any state: exactly as without the panic, up to it. -/
theorem call_panics (stop : Stop) (d : Driver) (e : ReadErr) (bytes : Bytes) (m : Machine) (h : Inv be t m) (hcand : Lt m) :
    ∃ reps k', Call (loopOf d) t e (keptOf m) bytes reps k' ∧
    ∃ m', m.parse d bytes e = some m' ∧ keptOf m' = k' ∧ Inv be t m' ∧ Lt m' ∧ m'.out = m.out ++ reps.map (resultFor be) ∧
      ((Calm stop m.out (reps.map (resultFor be)) ∧ m.parseP stop d bytes e = .ok m') ∨
       ∃ a r b y, reps = a ++ r :: b ∧ PanicCall (loopOf d) t e (keptOf m) bytes (a ++ [r]) (keptOf y) ∧
        StopsFirst stop m.out (a.map (resultFor be)) (resultFor be r) ∧ m.parseP stop d bytes e = .panic y ∧ Inv be t y ∧ Lt y ∧
        y.out = m.out ++ (a ++ [r]).map (resultFor be)) := by
  have ht : t ≠ 60 := fun hh => (lt_ne h) hh.symm
  have ht2 : t = 10 ∨ t = 0 := by rcases h.typ with ⟨-, h⟩ | ⟨-, h⟩ <;> simp [h]
  obtain ⟨reps, k', hcall⟩ := call_total (loopOf d) ht2 e (keptOf m) bytes
  refine ⟨reps, k', hcall, ?_⟩
  cases hcall with
  | messages ms rest hm hr =>
    have hcall : Call (loopOf d) t e (keptOf m) _ _ _ := .messages (keptOf m) ms rest hm hr
    obtain ⟨gs, g1, g2⟩ := groups_of_frames ht ms hm
    have hbytes : framed t ms = gs.flatten.flatten := by
      rw [flatten_flatten, g2, framed, List.flatMap_def]
    have hlines : ∀ l ∈ gs.flatten, IsLine t l := by
      intro l hl
      obtain ⟨g, hg', hl⟩ := List.mem_flatten.mp hl
      exact (g1 g hg').lines l hl
    have hchunks : chunks m.trailer (framed t ms ++ rest) = (gs.flatten, rest) := by
      rw [h.tr, hbytes]; exact chunks_lines t gs.flatten rest hlines hr
    have hT := texts_reports m gs ms g2
    generalize hTT : (texts m.candidate gs).map (fun w => (Report.whole (strip t w) : Report ReadErr)) = T at hT
    have hres : ∀ l : List Bytes, l.map (res be t) = (l.map fun w => (Report.whole (strip t w) : Report ReadErr)).map (resultFor be) := by
      intro l; rw [List.map_map]; rfl
    have hTlt : ∀ w ∈ texts m.candidate gs, w.head? = some 60 := by
      intro w hw
      simp only [texts, List.mem_append] at hw
      rcases hw with hw | hw
      · split at hw
        · simp at hw
        · rename_i hc
          rw [List.mem_singleton.mp hw]; exact cand_lt hcand hc
      · rw [g2] at hw
        obtain ⟨x, hx, rfl⟩ := List.mem_map.mp hw
        have := (hm x hx).lt
        cases x with
        | nil => simp at this
        | cons c q => simpa using this
    rw [← List.append_assoc, ← hT] at hcall ⊢
    rw [lastReport_eq] at hcall ⊢
    rcases driveP_groups (stop := stop) d e rest gs g1 1 (Or.inl rfl) m h with
      ⟨a, w, b, y, c1, c2, c3, c4, c5, c6, c7, c8, c9⟩ | ⟨cs', m1, c0, c1, c1', c2, c3, c4, c5, c6, c7⟩
    · -- a panic in the loop
      obtain ⟨m', d1, d2, d3, d4, d5⟩ := call_of_spec hcall m h rfl hcand
      refine ⟨m', d1, d4, d2, d5, d3, Or.inr ?_⟩
      rw [c1, List.map_append, List.map_cons] at hTT
      have hw60 := hTlt w (by rw [c1]; simp)
      obtain ⟨s1, s2⟩ := strip_lt ht hw60
      have hk : keptOf y = ⟨some (strip t w), (keptOf m).rest⟩ := by
        simp only [keptOf, c7, c8, c9, if_neg s1]
      refine ⟨_, _, _, y, by rw [← hTT, List.append_assoc]; rfl, ?_, ?_, ?_, c5, Or.inr (by rw [c7]; exact s2), ?_⟩
      · rw [hk]
        exact .message (keptOf m) ms rest hm hr (by rw [← hT, ← hTT]) (Or.inl (by simpa using c2))
      · rw [← hres]; exact c3
      · simp only [Machine.parseP, hchunks, c4]
      · rw [c6, hres]; simp
    · have hlast : m1.candidate = [] ∧ texts m.candidate gs = [] ∨
          m1.candidate ≠ [] ∧ T = T.dropLast ++ [Report.whole (strip t m1.candidate)] := by
        rcases List.eq_nil_or_concat (texts m.candidate gs) with hh | ⟨L, x, hh⟩
        · left; rw [hh] at c5; exact ⟨c5, hh⟩
        · right
          rw [List.concat_eq_append] at hh
          rw [hh] at c5 hTT
          simp only [List.getLast?_append, List.getLast?_singleton, Option.some_or, Option.getD_some] at c5
          constructor
          · rw [c5]
            have := hTlt x (by rw [hh]; simp)
            rintro rfl
            simp at this
          · rw [← hTT, c5]; simp
      have hlt1 : Lt m1 := by
        unfold Lt
        rw [c5]
        rcases List.eq_nil_or_concat (texts m.candidate gs) with hh | ⟨L, x, hh⟩
        · left; rw [hh]; rfl
        · right
          rw [List.concat_eq_append] at hh
          rw [hh]
          simp only [List.getLast?_append, List.getLast?_singleton, Option.some_or, Option.getD_some]
          exact hTlt x (by rw [hh]; simp)
      have hdrop : (texts m.candidate gs).dropLast.map (res be t) = T.dropLast.map (resultFor be) := by
        rw [hres, ← hTT, List.map_dropLast]
      rw [hdrop] at c0 c4
      have hnil : texts m.candidate gs = [] → T = [] := by intro hh; rw [← hTT, hh]; rfl
      have hagain1 : ∀ m2 : Machine, m2.candidate = m1.candidate → T.dropLast ++ again t (keptOf m2) = T := by
        intro m2 hm2
        rcases hlast with ⟨l1, l2⟩ | ⟨l1, l2⟩
        · rw [hnil l2]; simp [again, keptOf, hm2, l1]
        · conv => rhs; rw [l2]
          simp [again, keptOf, hm2, l1]; rfl
      have hpc : ∀ m2 : Machine, (keptOf m2).rest = nextRest (loopOf d) e (keptOf m) rest →
          ¬ ((loopOf d).runsRest = true ∧ rest.head? = some 60) → ∀ D w, T = D ++ [Report.whole (without t w)] →
          PanicCall (loopOf d) t e (keptOf m) (framed t ms ++ rest) T ⟨some (without t w), (keptOf m2).rest⟩ := by
        intro m2 hr2 hno D w hw
        rw [hr2, hw]
        rw [hw] at hT
        exact .lastMessage (keptOf m) ms rest hm hr hT.symm hno
      have hrest1 : ∀ m2 : Machine, (m2.readError, m2.lastChunk) =
          (if rest ≠ [] then (some e, rest) else if d.errOnEmpty then (some e, []) else (m.readError, m.lastChunk)) →
          (keptOf m2).rest = nextRest (loopOf d) e (keptOf m) rest := fun m2 hh => kept_rest d e rest m m2 hh
      by_cases hl : rest = []
      · -- the stream ends with a trailer
        have hP : m.parseP stop d (framed t ms ++ rest) e = Machine.onCompletionP stop (if d.errOnEmpty then m1.onErr [] e else m1.onEOF []) := by
          simp only [Machine.parseP, hchunks, c1, driveP, if_pos hl]
        have hM : m.parse d (framed t ms ++ rest) e = Machine.onCompletion (if d.errOnEmpty then m1.onErr [] e else m1.onEOF []) := by
          simp only [Machine.parse, hchunks, c1', drive, if_pos hl]
        have hx : (if d.errOnEmpty then m1.onErr [] e else m1.onEOF []).candidate = m1.candidate ∧
            (if d.errOnEmpty then m1.onErr [] e else m1.onEOF []).out = m1.out ∧
            Inv be t (if d.errOnEmpty then m1.onErr [] e else m1.onEOF []) ∧
            ((if d.errOnEmpty then m1.onErr [] e else m1.onEOF []).readError, (if d.errOnEmpty then m1.onErr [] e else m1.onEOF []).lastChunk) =
              (if rest ≠ [] then (some e, rest) else if d.errOnEmpty then (some e, []) else (m.readError, m.lastChunk)) := by
          simp only [hl, ne_eq, not_true_eq_false, if_false]
          cases d.errOnEmpty with
          | true => exact ⟨rfl, rfl, ⟨c3.tr, c3.typ, c3.ibe, c3.ico⟩, rfl⟩
          | false => exact ⟨rfl, rfl, c3, by simp only [Bool.false_eq_true, if_false, Machine.onEOF, c6, c7]⟩
        generalize (if d.errOnEmpty then m1.onErr [] e else m1.onEOF []) = m2 at *
        obtain ⟨x1, x2, x3, x4⟩ := hx
        have hr2 := hrest1 m2 x4
        refine finish ht hcall h hcand (T := T) (D := T.dropLast) (m2 := m2) (by rw [hr2]) (hagain1 m2 x1) (by rw [x2, c4]) c0 x3
          (by unfold Lt; rw [x1]; exact hlt1) hP hM ?_
        intro w _ hw
        exact hpc m2 hr2 (by rw [hl]; simp) _ w hw
      · by_cases hd : d.execLast = true
        · obtain ⟨p1, p2⟩ := execP_last (stop := stop) c3 hr hl cs' (by omega)
          have hcs0 : cs' ≠ 0 := by omega
          by_cases hpan : rest.head? = some 60 ∧ stopsAt stop be t m1
          · -- a panic while the rest is read
            obtain ⟨i, q1, q2⟩ := p1 ⟨hcs0, hpan⟩
            obtain ⟨m', d1, d2, d3, d4, d5⟩ := call_of_spec hcall m h rfl hcand
            refine ⟨m', d1, d4, d2, d5, d3, Or.inr ?_⟩
            obtain ⟨k1, k2⟩ := kept_left (be := be) ht hlt1 hpan.2.1 i
            rcases hlast with ⟨l1, -⟩ | ⟨l1, l2⟩
            · exact absurd l1 hpan.2.1
            refine ⟨T.dropLast, .whole (strip t m1.candidate), ((nextRest (loopOf d) e (keptOf m) rest).map fun p => Report.cut p.1 p.2).toList,
              leftAt be t m1 i, ?_, ?_, ⟨c0, ?_⟩, ?_, q2, k2, ?_⟩
            · conv => lhs; rw [l2]
              rw [List.append_assoc]; rfl
            · rw [k1]
              have : (keptOf m1).rest = (keptOf m).rest := by simp only [keptOf, c6, c7]
              rw [this]
              exact .message (keptOf m) ms rest hm hr (a := T.dropLast) (b := []) (w := strip t m1.candidate) (by rw [← hT]; exact l2)
                (Or.inr ⟨hd, hpan.1⟩)
            · have := hpan.2.2
              rw [c4, List.append_assoc] at this
              exact this
            · simp only [Machine.parseP, hchunks, c1, driveP, if_neg hl, if_pos hd, q1]
            · simp only [leftAt, c4, List.map_append, List.append_assoc]; rfl
          · have hx := p2 (fun hh => hpan hh.2)
            obtain ⟨cs2, ok, m2, e1, e2, e3, e4, e5, e6⟩ := exec_last c3 hr hl cs' (by omega)
            rw [e1] at hx
            have hP : m.parseP stop d (framed t ms ++ rest) e = Machine.onCompletionP stop (m2.onErr rest e) := by
              simp only [Machine.parseP, hchunks, c1, driveP, if_neg hl, if_pos hd, hx, Ran.of]
            have hM : m.parse d (framed t ms ++ rest) e = Machine.onCompletion (m2.onErr rest e) := by
              simp only [Machine.parse, hchunks, c1', drive, if_neg hl, if_pos hd, e1]
            have hr2 := hrest1 (m2.onErr rest e) (by simp [Machine.onErr, hl])
            by_cases h60 : rest.head? = some 60
            · rw [if_pos ⟨hcs0, h60⟩] at e4
              have hns : ¬ stopsAt stop be t m1 := fun hh => hpan ⟨h60, hh⟩
              have hall : T.map (resultFor be) = T.dropLast.map (resultFor be) ++ pend be t m1.candidate := by
                rcases hlast with ⟨l1, l2⟩ | ⟨l1, l2⟩
                · rw [hnil l2, l1]; simp [pend]
                · conv => lhs; rw [l2]
                  rw [List.map_append, pend, if_neg l1]; rfl
              have hout : m2.out = m.out ++ T.map (resultFor be) := by
                rw [e4] at e3
                simp only [pend, if_true, List.append_nil] at e3
                rw [e3, c4, hall, List.append_assoc]; rfl
              have hc : Calm stop m.out (T.map (resultFor be)) := by
                rw [hall]
                refine calm_append c0 ?_
                rw [← c4]
                unfold pend
                by_cases hc : m1.candidate = []
                · rw [if_pos hc]; exact calm_nil _ _
                · rw [if_neg hc]
                  apply calm_one
                  cases hh : stop (m1.out ++ [pmsg be (strip t m1.candidate)]) with
                  | false => rfl
                  | true => exact absurd ⟨hc, hh⟩ hns
              refine finish ht hcall h hcand (T := T) (D := T) (m2 := m2.onErr rest e) (by rw [hr2]) (by simp [again, keptOf, Machine.onErr, e4]) hout hc
                ⟨e2.tr, e2.typ, e2.ibe, e2.ico⟩ (Or.inl e4) hP hM ?_
              intro w hw
              simp [keptOf, Machine.onErr, e4] at hw
            · rw [if_neg (fun hh => h60 hh.2)] at e4
              have hout : m2.out = m1.out := by rw [e4] at e3; exact List.append_cancel_right e3
              refine finish ht hcall h hcand (T := T) (D := T.dropLast) (m2 := m2.onErr rest e) (by rw [hr2]) (hagain1 _ e4)
                (by show m2.out = _; rw [hout, c4]) c0 ⟨e2.tr, e2.typ, e2.ibe, e2.ico⟩
                (by unfold Lt; rw [show (m2.onErr rest e).candidate = m1.candidate from e4]; exact hlt1) hP hM ?_
              intro w _ hw
              exact hpc _ hr2 (fun hh => h60 hh.2) _ w hw
        · have hP : m.parseP stop d (framed t ms ++ rest) e = Machine.onCompletionP stop (m1.onErr rest e) := by
            simp only [Machine.parseP, hchunks, c1, driveP, if_neg hl, if_neg hd]
          have hM : m.parse d (framed t ms ++ rest) e = Machine.onCompletion (m1.onErr rest e) := by
            simp only [Machine.parse, hchunks, c1', drive, if_neg hl, if_neg hd]
          have hr2 := hrest1 (m1.onErr rest e) (by simp [Machine.onErr, hl])
          refine finish ht hcall h hcand (T := T) (D := T.dropLast) (m2 := m1.onErr rest e) (by rw [hr2]) (hagain1 _ rfl) c4 c0
            ⟨c3.tr, c3.typ, c3.ibe, c3.ico⟩ hlt1 hP hM ?_
          intro w _ hw
          exact hpc _ hr2 (fun hh => hd hh.1) _ w hw
  | dropped w rest h60 hr =>
    have hcall : Call (loopOf d) t e (keptOf m) _ _ _ := .dropped (keptOf m) w rest h60 hr
    obtain ⟨c1, c2, c3⟩ := chunks_spec t (w ++ [t])
    generalize (chunks t (w ++ [t])).1 = L at *
    generalize hlast : (chunks t (w ++ [t])).2 = last at *
    have hl0 : last = [] := by
      rcases List.eq_nil_or_concat last with rfl | ⟨q, x, rfl⟩
      · rfl
      · rw [List.concat_eq_append, ← List.append_assoc] at c1
        have := (List.append_inj' c1 rfl).2
        simp at this
        simp [this] at c3
    rw [hl0, List.append_nil] at c1
    cases L with
    | nil => simp at c1
    | cons l ls =>
      have hl60 : l.head? ≠ some 60 := by
        obtain ⟨b, rfl, -⟩ := c2 l (by simp)
        rw [c1] at h60
        cases b <;> simpa using h60
      have hb : w ++ t :: rest = (l :: ls).flatten ++ rest := by rw [← c1]; simp
      have hchunks : chunks m.trailer (w ++ t :: rest) = (l :: ls, rest) := by
        rw [h.tr, hb]; exact chunks_lines t (l :: ls) rest c2 hr
      have hP0 : driveP stop d e rest (l :: ls) 1 m = if d.stopOnFail = true then .ok m else driveP stop d e rest ls 0 m := by
        rw [driveP, execP_bad m (c2 l (by simp)) hl60]
        simp
      have hM0 : drive d e rest (l :: ls) 1 m = if d.stopOnFail = true then some m else drive d e rest ls 0 m := by
        rw [drive, exec_bad m (c2 l (by simp)) hl60]
        simp
      by_cases hs : d.stopOnFail = true
      · have hs' : (loopOf d).stops = true := hs
        simp only [if_pos hs'] at hcall ⊢
        refine finish ht hcall h hcand (T := again t (keptOf m)) (D := []) (m2 := m) rfl rfl (by simp) (calm_nil _ _) h hcand
          (by simp only [Machine.parseP, hchunks, hP0, if_pos hs]) (by simp only [Machine.parse, hchunks, hM0, if_pos hs]) ?_
        intro x hx hw
        have := PanicCall.dropped (l := loopOf d) (e := e) (keptOf m) w rest h60 hr hx
        rw [if_pos hs'] at this
        rw [hw]
        exact this
      · have hs' : ¬ (loopOf d).stops = true := hs
        simp only [if_neg hs'] at hcall ⊢
        rw [lastReport_eq] at hcall ⊢
        have hdead : ∀ ls : List Bytes, (∀ l ∈ ls, IsLine t l) → driveP stop d e rest ls 0 m = driveP stop d e rest [] 0 m ∧
            drive d e rest ls 0 m = drive d e rest [] 0 m := by
          intro ls hls
          induction ls with
          | nil => exact ⟨rfl, rfl⟩
          | cons l ls ih =>
            have hne : l ≠ [] := by obtain ⟨b, rfl, -⟩ := hls l (by simp); simp
            have ih := ih (fun x hx => hls x (by simp [hx]))
            constructor
            · have hc : driveP stop d e rest (l :: ls) 0 m = driveP stop d e rest ls 0 m := by
                rw [driveP.eq_2, execP_dead m hne]
                simp [hs]
              rw [hc]; exact ih.1
            · rw [drive_cons d e rest _ _ _ _ (exec_dead m hne)]
              simp [hs]
              exact ih.2
        obtain ⟨q1, q2⟩ := hdead ls (fun x hx => c2 x (by simp [hx]))
        have key : ∃ m2, driveP stop d e rest [] 0 m = .ok m2 ∧ drive d e rest [] 0 m = some m2 ∧ m2.candidate = m.candidate ∧
            m2.out = m.out ∧ Inv be t m2 ∧ (m2.readError, m2.lastChunk) =
              (if rest ≠ [] then (some e, rest) else if d.errOnEmpty then (some e, []) else (m.readError, m.lastChunk)) := by
          by_cases hl : rest = []
          · refine ⟨if d.errOnEmpty then m.onErr [] e else m.onEOF [], by rw [driveP, if_pos hl], by rw [drive, if_pos hl], ?_⟩
            simp only [hl, ne_eq, not_true_eq_false, if_false]
            cases d.errOnEmpty with
            | true => exact ⟨rfl, rfl, ⟨h.tr, h.typ, h.ibe, h.ico⟩, rfl⟩
            | false => exact ⟨rfl, rfl, h, rfl⟩
          · refine ⟨m.onErr rest e, ?_, ?_, rfl, rfl, ⟨h.tr, h.typ, h.ibe, h.ico⟩, by rw [if_pos hl]; rfl⟩
            · rw [driveP, if_neg hl, execP_dead m hl]; cases d.execLast <;> rfl
            · rw [drive, if_neg hl, exec_dead m hl]; cases d.execLast <;> rfl
        obtain ⟨m2, k1, k2, k3, k4, k5, k6⟩ := key
        have hr2 : (keptOf m2).rest = nextRest (loopOf d) e (keptOf m) rest := kept_rest d e rest m m2 k6
        have hm2 : (keptOf m2).message = (keptOf m).message := by simp only [keptOf, k3]
        have hag : again t (keptOf m2) = again t (keptOf m) := by simp only [again, hm2]
        refine finish ht hcall h hcand (T := again t (keptOf m)) (D := []) (m2 := m2) (by rw [hr2]) hag (by simp [k4]) (calm_nil _ _) k5
          (by unfold Lt; rw [k3]; exact hcand)
          (by simp only [Machine.parseP, hchunks, hP0, if_neg hs, q1, k1]) (by simp only [Machine.parse, hchunks, hM0, if_neg hs, q2, k2]) ?_
        intro x hx hw
        have := PanicCall.dropped (l := loopOf d) (e := e) (keptOf m) w rest h60 hr (hm2 ▸ hx)
        rw [if_neg hs'] at this
        rw [hw, hr2]
        exact this

/-! ## The specification leaves no choice -/

theorem framed_cons (m : Bytes) (ms : List Bytes) (rest : Bytes) : framed t (m :: ms) ++ rest = m ++ t :: (framed t ms ++ rest) := by
  simp [framed]

theorem framed_inj (ht : t ≠ 60) (ms ms' : List Bytes) (rest rest' : Bytes) (hm : ∀ m ∈ ms, Framable t m) (hm' : ∀ m ∈ ms', Framable t m)
    (hr : t ∉ rest) (hr' : t ∉ rest') (h : framed t ms ++ rest = framed t ms' ++ rest') : ms = ms' ∧ rest = rest' := by
  -- a longer first message would contain the trailer followed by `<`
  have long : ∀ (m u : Bytes) (ms ms' : List Bytes) (rest rest' : Bytes), (∀ m ∈ ms, Framable t m) → t ∉ rest → Framable t (m ++ t :: u) →
      framed t ms ++ rest = u ++ t :: (framed t ms' ++ rest') → False := by
    intro m u ms ms' rest rest' hm hr hf hh
    cases ms with
    | nil =>
      rw [show framed t [] ++ rest = rest from rfl] at hh
      rw [hh] at hr
      simp at hr
    | cons x xs =>
      rw [framed_cons] at hh
      have hx := (hm x (by simp)).lt
      obtain ⟨q, rfl⟩ : ∃ q, x = 60 :: q := by
        cases x with
        | nil => simp at hx
        | cons c q => simp at hx; exact ⟨q, by rw [hx]⟩
      cases u with
      | nil =>
        simp only [List.cons_append, List.nil_append, List.cons.injEq] at hh
        exact ht hh.1.symm
      | cons c q' =>
        simp only [List.cons_append, List.cons.injEq] at hh
        rw [← hh.1] at hf
        exact hf.inside _ _ rfl
  induction ms generalizing ms' with
  | nil =>
    cases ms' with
    | nil => exact ⟨rfl, h⟩
    | cons m' ms' =>
      rw [framed_cons] at h
      rw [show framed t [] ++ rest = rest from rfl] at h
      rw [h] at hr
      simp at hr
  | cons m ms ih =>
    cases ms' with
    | nil =>
      rw [framed_cons] at h
      rw [show framed t [] ++ rest' = rest' from rfl] at h
      rw [← h] at hr'
      simp at hr'
    | cons m' ms' =>
      rw [framed_cons, framed_cons] at h
      have hmm : m = m' := by
        rcases List.append_eq_append_iff.mp h with ⟨u, h1, h2⟩ | ⟨u, h1, h2⟩
        · cases u with
          | nil => simpa using h1.symm
          | cons c u =>
            simp only [List.cons_append, List.cons.injEq] at h2
            obtain ⟨rfl, h2⟩ := h2
            exact (long m u ms ms' rest rest' (fun x hx => hm x (by simp [hx])) hr (h1 ▸ hm' m' (by simp)) h2).elim
        · cases u with
          | nil => simpa using h1
          | cons c u =>
            simp only [List.cons_append, List.cons.injEq] at h2
            obtain ⟨rfl, h2⟩ := h2
            exact (long m' u ms' ms rest' rest (fun x hx => hm' x (by simp [hx])) hr' (h1 ▸ hm m (by simp)) h2).elim
      subst hmm
      have h := List.append_cancel_left h
      simp only [List.cons.injEq, true_and] at h
      obtain ⟨h1, h2⟩ := ih ms' (fun x hx => hm x (by simp [hx])) (fun x hx => hm' x (by simp [hx])) h
      exact ⟨by rw [h1], h2⟩

theorem dropped_inj {w w' rest rest' : Bytes} (hr : t ∉ rest) (hr' : t ∉ rest') (h : w ++ t :: rest = w' ++ t :: rest') : w = w' ∧ rest = rest' := by
  rcases List.append_eq_append_iff.mp h with ⟨u, h1, h2⟩ | ⟨u, h1, h2⟩
  · cases u with
    | nil =>
      simp only [List.append_nil] at h1
      subst h1
      exact ⟨rfl, by simpa using h2⟩
    | cons c u =>
      simp only [List.cons_append, List.cons.injEq] at h2
      rw [h2.2] at hr
      simp at hr
  · cases u with
    | nil =>
      simp only [List.append_nil] at h1
      subst h1
      exact ⟨rfl, by simpa using h2.symm⟩
    | cons c u =>
      simp only [List.cons_append, List.cons.injEq] at h2
      rw [h2.2] at hr'
      simp at hr'

theorem not_both {ms : List Bytes} {w rest rest' : Bytes} (hm : ∀ m ∈ ms, Framable t m) (hr : t ∉ rest) (h60 : (w ++ [t]).head? ≠ some 60)
    (h : framed t ms ++ rest = w ++ t :: rest') : False := by
  cases ms with
  | nil =>
    rw [show framed t [] ++ rest = rest from rfl] at h
    rw [h] at hr
    simp at hr
  | cons m ms =>
    rw [framed_cons] at h
    have hx := (hm m (by simp)).lt
    obtain ⟨q, rfl⟩ : ∃ q, m = 60 :: q := by
      cases m with
      | nil => simp at hx
      | cons c q => simp at hx; exact ⟨q, by rw [hx]⟩
    cases w with
    | nil => simp at h h60; exact h60 h.1.symm
    | cons c w => simp at h h60; exact h60 h.1.symm

theorem call_inv_messages (ht : t ≠ 60) {l : Loop} {e : ReadErr} {k k' : Kept ReadErr} {ms : List Bytes} {rest : Bytes} {rs : List (Report ReadErr)}
    (hm : ∀ m ∈ ms, Framable t m) (hr : t ∉ rest) (h : Call l t e k (framed t ms ++ rest) rs k') :
    rs = again t k ++ (ms.map .whole ++ lastReport l e k rest) ∧
      k' = ⟨if l.runsRest = true ∧ rest.head? = some 60 then none
          else match ms.getLast? with
            | some m => some m
            | none => k.message.map (without t), nextRest l e k rest⟩ := by
  generalize hb : framed t ms ++ rest = bytes at h
  cases h with
  | messages ms' rest' hm' hr' =>
    obtain ⟨rfl, rfl⟩ := framed_inj ht ms ms' rest rest' hm hm' hr hr' hb
    exact ⟨rfl, rfl⟩
  | dropped w rest' h60 hr' => exact (not_both hm hr h60 hb).elim

theorem call_inv_dropped {l : Loop} {e : ReadErr} {k k' : Kept ReadErr} {w rest : Bytes} {rs : List (Report ReadErr)}
    (h60 : (w ++ [t]).head? ≠ some 60) (hr : t ∉ rest) (h : Call l t e k (w ++ t :: rest) rs k') :
    rs = again t k ++ (if l.stops then (k.rest.map fun p => Report.cut p.1 p.2).toList else lastReport l e k rest) ∧
      k' = ⟨k.message.map (without t), if l.stops then k.rest else nextRest l e k rest⟩ := by
  generalize hb : w ++ t :: rest = bytes at h
  cases h with
  | messages ms' rest' hm' hr' => exact (not_both hm' hr' h60 hb.symm).elim
  | dropped w' rest' h60' hr' =>
    obtain ⟨rfl, rfl⟩ := dropped_inj hr hr' hb
    exact ⟨rfl, rfl⟩

theorem call_unique (ht : t ≠ 60) {l : Loop} {e : ReadErr} {k k₁ k₂ : Kept ReadErr} {bytes : Bytes} {r₁ r₂ : List (Report ReadErr)}
    (h₁ : Call l t e k bytes r₁ k₁) (h₂ : Call l t e k bytes r₂ k₂) : r₁ = r₂ ∧ k₁ = k₂ := by
  cases h₁ with
  | messages ms rest hm hr =>
    obtain ⟨a, b⟩ := call_inv_messages ht hm hr h₂
    exact ⟨a.symm, b.symm⟩
  | dropped w rest h60 hr =>
    obtain ⟨a, b⟩ := call_inv_dropped h60 hr h₂
    exact ⟨a.symm, b.symm⟩

/-- what a listener has got when it panics is what it would have got without a panic, up to there -/
theorem panic_prefix {l : Loop} {e : ReadErr} {k k₁ : Kept ReadErr} {bytes : Bytes} {got : List (Report ReadErr)}
    (h : PanicCall l t e k bytes got k₁) : ∃ more k', Call l t e k bytes (got ++ more) k' := by
  cases h with
  | @message ms rest hm hr a b w h1 h2 =>
    have := Call.messages (l := l) (e := e) k ms rest hm hr
    rw [← List.append_assoc, h1] at this
    have heq : a ++ Report.whole w :: b ++ lastReport l e k rest = a ++ [Report.whole w] ++ (b ++ lastReport l e k rest) := by simp
    rw [heq] at this
    exact ⟨_, _, this⟩
  | @lastMessage ms rest hm hr a w h1 h2 =>
    have := Call.messages (l := l) (e := e) k ms rest hm hr
    rw [← List.append_assoc, h1] at this
    exact ⟨_, _, this⟩
  | rest h => exact ⟨[], _, by simpa using h⟩
  | @dropped w rest h60 hr m hm =>
    have := Call.dropped (l := l) (e := e) k w rest h60 hr
    rw [show again t k = [.whole (without t m)] by rw [again, hm]; rfl] at this
    exact ⟨_, _, this⟩

theorem panic_unique (ht : t ≠ 60) {l : Loop} {e : ReadErr} {k k₁ k₂ : Kept ReadErr} {bytes : Bytes} {got : List (Report ReadErr)}
    (h₁ : PanicCall l t e k bytes got k₁) (h₂ : PanicCall l t e k bytes got k₂) : k₁ = k₂ := by
  have hlast : ∀ {a b : List (Report ReadErr)} {x y : Report ReadErr}, a ++ [x] = b ++ [y] → a = b ∧ x = y := by
    intro a b x y h
    have := List.append_inj' h rfl
    exact ⟨this.1, by simpa using this.2⟩
  generalize hg : got = got' at h₂
  generalize hb : bytes = bytes' at h₂
  cases h₁ with
  | @message ms rest hm hr a b w h1 h2 =>
    cases h₂ with
    | @message ms' rest' hm' hr' a' b' w' h1' h2' =>
      obtain ⟨-, h⟩ := hlast hg
      cases h; rfl
    | @lastMessage ms' rest' hm' hr' a' w' h1' h2' =>
      obtain ⟨rfl, rfl⟩ := framed_inj ht ms ms' rest rest' hm hm' hr hr' hb
      obtain ⟨rfl, h⟩ := hlast hg
      cases h
      rw [h1] at h1'
      have := List.append_cancel_left h1'
      simp only [List.cons.injEq, true_and] at this
      rcases h2 with h2 | h2
      · exact absurd this h2
      · exact absurd h2 h2'
    | rest h => obtain ⟨-, h⟩ := hlast hg; cases h
    | dropped w' rest' h60' hr' _ => exact (not_both hm hr h60' hb).elim
  | @lastMessage ms rest hm hr a w h1 h2 =>
    cases h₂ with
    | @message ms' rest' hm' hr' a' b' w' h1' h2' =>
      obtain ⟨rfl, rfl⟩ := framed_inj ht ms ms' rest rest' hm hm' hr hr' hb
      obtain ⟨rfl, h⟩ := hlast hg
      cases h
      rw [h1] at h1'
      have := List.append_cancel_left h1'
      simp only [List.cons.injEq, true_and] at this
      rcases h2' with h2' | h2'
      · exact absurd this.symm h2'
      · exact absurd h2' h2
    | @lastMessage ms' rest' hm' hr' a' w' h1' h2' =>
      obtain ⟨rfl, rfl⟩ := framed_inj ht ms ms' rest rest' hm hm' hr hr' hb
      obtain ⟨-, h⟩ := hlast hg
      cases h; rfl
    | rest h => obtain ⟨-, h⟩ := hlast hg; cases h
    | dropped w' rest' h60' hr' _ => exact (not_both hm hr h60' hb).elim
  | @rest _ _ a w e' h =>
    cases h₂ with
    | message => obtain ⟨-, h⟩ := hlast hg; cases h
    | lastMessage => obtain ⟨-, h⟩ := hlast hg; cases h
    | rest h' =>
      subst hb
      rw [← hg] at h'
      exact (call_unique ht h h').2
    | dropped => obtain ⟨-, h⟩ := hlast (b := []) hg; cases h
  | @dropped w rest h60 hr m hm =>
    cases h₂ with
    | @message ms' rest' hm' hr' => exact (not_both hm' hr' h60 hb.symm).elim
    | @lastMessage ms' rest' hm' hr' => exact (not_both hm' hr' h60 hb.symm).elim
    | rest => obtain ⟨-, h⟩ := hlast (a := []) hg; cases h
    | @dropped w' rest' h60' hr' m' hm' =>
      obtain ⟨rfl, rfl⟩ := dropped_inj hr hr' hb
      rw [hm] at hm'
      cases hm'
      rfl

end
end NT
end Verif.Props
