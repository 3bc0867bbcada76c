import Verif.Props.MeshPlot
import Verif.Lemmas.SaveLoop
/-!
C55, more: what holds for a plot of a scan in any state, and for a scan that was read before.
-/
namespace S2N.Props
open S2N S2N.Py S2N.Spec S2N.Plot

section
variable [UniDB] (env : Env) (reg : List HKey)

/-- what `plotScan` does for a picture: the data are retrieved, the options set, and the image made -/
theorem plotScan_inv {m : Maker} {set : Settings} {dataFile : Str} {td tp : Option Int} {c : ScanCtx} {p : Picture}
    (h : (plotScan env reg m set dataFile td tp c).2 = .ok (some p)) :
    ∃ r o, retrieved env reg m (titles dataFile { ctx := c, set := set }) = (r, none) ∧ options m r = (o, none) ∧
      plottable m o = .ok true ∧ image m o = .ok (some p) ∧ (plotScan env reg m set dataFile td tp c).1 = o.ctx := by
  unfold plotScan at h ⊢
  split at h
  · cases h
  · rename_i hab
    rw [if_neg hab]
    generalize hr : retrieved env reg m (titles dataFile { ctx := c, set := set }) = r at *
    obtain ⟨r, e⟩ := r
    cases e with
    | some e => exfalso; revert h; cases e <;> (intro h; cases h)
    | none =>
      simp only at h ⊢
      generalize ho : options m r = o at *
      obtain ⟨o, e⟩ := o
      cases e with
      | some e => cases h
      | none =>
        simp only at h ⊢
        refine ⟨r, o, rfl, ho, ?_⟩
        generalize plottable m o = b at *
        cases b with
        | error e => cases h
        | ok b =>
          cases b with
          | false => cases h
          | true =>
            simp only at h
            generalize newer td tp = b at *
            cases b with
            | error e => cases h
            | ok b =>
              cases b with
              | false => cases h
              | true => exact ⟨rfl, h, rfl⟩

/-- **C55**: whatever state the scan is in, a picture with points has as many values for one axis as for
the other, at least one unless it was drawn for a mesh. -/
theorem C55_same_length (m : Maker) (set : Settings) (dataFile : Str) (td tp : Option Int) (c : ScanCtx)
    (x y : PVal) (t : Settings) (h : (plotScan env reg m set dataFile td tp c).2 = .ok (some (.xy x y t))) :
    ∃ n, x.len = .ok n ∧ y.len = .ok n ∧ (m ≠ .mesh → 0 < n) := by
  obtain ⟨r, o, -, -, h1, h2, -⟩ := plotScan_inv env reg h
  have line : linePlottable o = .ok true → lineImage o = .ok (some (.xy x y t)) →
      ∃ n, x.len = .ok n ∧ y.len = .ok n ∧ 0 < n := by
    intro h1 h2
    unfold linePlottable at h1
    unfold lineImage at h2
    cases hs : o.signal with
    | none => rw [hs] at h1; cases h1
    | some sig =>
      rw [hs] at h1 h2
      simp only at h1 h2
      cases hy : o.data.get? sig with
      | none => rw [hy] at h1; cases h1
      | some y' =>
        rw [hy] at h1 h2
        simp only at h1 h2
        cases hl : y'.len with
        | error e => rw [hl] at h1; cases h1
        | ok n =>
          rw [hl] at h1
          simp only at h1
          split at h1
          · rename_i hn
            cases ha : o.axes with
            | nil => rw [ha] at h1; cases h1
            | cons a as =>
              cases as with
              | cons b bs => rw [ha] at hn; simp at hn
              | nil =>
                rw [ha] at h1 h2
                simp only at h1 h2
                cases hx : o.data.get? a with
                | none => rw [hx] at h1; cases h1
                | some x' =>
                  rw [hx] at h1 h2
                  simp only [Except.ok.injEq, Option.some.injEq, Picture.xy.injEq] at h1 h2
                  obtain ⟨rfl, rfl, -⟩ := h2
                  cases hm : x'.len with
                  | error e => rw [hm] at h1; cases h1
                  | ok k =>
                    rw [hm] at h1
                    simp only [Except.ok.injEq, decide_eq_true_eq] at h1
                    subst h1
                    exact ⟨n, rfl, hl, hn.1⟩
          · cases h1
  cases m with
  | mesh =>
    simp only [plottable, image, Except.ok.injEq] at h1 h2
    unfold meshPlottable at h1
    unfold meshImage at h2
    cases hs : o.signal with
    | none => rw [hs] at h1; cases h1
    | some sig =>
      rw [hs] at h1 h2
      simp only at h1 h2
      cases hy : o.data.get? sig with
      | none => rw [hy] at h1; cases h1
      | some y' =>
        rw [hy] at h1 h2
        simp only [Bool.and_eq_true, decide_eq_true_eq] at h1 h2
        rcases ha : o.axes with - | ⟨a, - | ⟨b, - | ⟨c', l⟩⟩⟩
        · rw [ha] at h2; cases h2
        · rw [ha] at h1 h2
          simp only at h1 h2
          cases hx : o.data.get? a with
          | none => rw [hx] at h2; cases h2
          | some x' =>
            rw [hx] at h2
            simp only [Except.ok.injEq, Option.some.injEq, Picture.xy.injEq] at h2
            obtain ⟨rfl, rfl, -⟩ := h2
            obtain ⟨h3, h4⟩ := h1
            simp only [List.reverse_cons, List.reverse_nil, List.nil_append] at h4
            have h3' : y'.shape.length = 1 := by
              rcases h3 with h3 | h3
              · simp at h3
              · simpa using h3.symm
            cases hsh : y'.shape with
            | nil => rw [hsh] at h3'; cases h3'
            | cons n ns =>
              cases ns with
              | cons _ _ => rw [hsh] at h3'; simp at h3'
              | nil =>
                rw [hsh] at h4
                simp only [meshShapes, hx, Bool.and_true] at h4
                cases hl : x'.len with
                | error e => rw [hl] at h4; cases h4
                | ok k =>
                  rw [hl] at h4
                  simp only [beq_iff_eq] at h4
                  subst h4
                  refine ⟨n, rfl, ?_, fun e => absurd rfl e⟩
                  unfold PVal.shape at hsh
                  unfold PVal.len
                  split at hsh <;> simp_all
        · rw [ha] at h2
          simp only at h2
          split at h2 <;> cases h2
        · rw [ha] at h2; cases h2
  | line => obtain ⟨n, a, b, c⟩ := line h1 h2; exact ⟨n, a, b, fun _ => c⟩
  | hkl => obtain ⟨n, a, b, c⟩ := line h1 h2; exact ⟨n, a, b, fun _ => c⟩
  | _ => obtain ⟨n, a, b, c⟩ := line h1 h2; exact ⟨n, a, b, fun _ => c⟩

/-- **C55**: a scan that was read before is plotted as it would be if it had not been, unless it was
aborted after no points: then nothing is drawn.  So a scan aborted after some points is plotted.  (If the
scan has several #D lines, the plots can show different dates.) -/
theorem C55_read_before (m : Maker) (set : Settings) (dataFile : Str) (td tp : Option Int) (c : ScanCtx)
    (hf : Fresh c.scan) (hok : (interpretScan env reg c).2 = none)
    (hd : (interpretScan env reg c).1.scan.date = c.scan.date) :
    ((interpretScan env reg c).1.scan.aborted = some p!"Scan aborted after 0 points." →
      plotScan env reg m set dataFile td tp (interpretScan env reg c).1 =
        ((interpretScan env reg c).1, .error .ScanAborted)) ∧
    ((interpretScan env reg c).1.scan.aborted ≠ some p!"Scan aborted after 0 points." → m = .line ∨ m = .hkl ∨ m = .mesh →
      (plotScan env reg m set dataFile td tp (interpretScan env reg c).1).2 =
        (plotScan env reg m set dataFile td tp c).2) := by
  have hab : c.scan.aborted = none := by obtain ⟨_, _, _, _, _, _, _, _, _, e⟩ := hf; rw [e]; rfl
  have hrd := read_data env reg c hf
  have hid := interp_ident env reg c
  have hint := interp_interpreted (env := env) (reg := reg) hok
  generalize hi : interpretScan env reg c = r at *
  obtain ⟨c1, e1⟩ := r
  simp only at hok hd hid hint ⊢
  subst hok
  have hrd1 : readAttr env reg p!"data" c1 = (c1, none) := by
    unfold readAttr
    split
    · exact interp_done hint
    · rfl
  have hnum : c1.scan.scanNum = c.scan.scanNum := congrArg Ident.scanNum hid
  have hcmd : c1.scan.scanCmd = c.scan.scanCmd := congrArg Ident.scanCmd hid
  refine ⟨fun h => ?_, fun h hm => ?_⟩
  · unfold plotScan
    exact if_pos h
  · have ht : titles dataFile { ctx := c1, set := set } =
        { titles dataFile { ctx := c, set := set } with ctx := c1 } := by
      simp only [titles, hnum, hcmd, hd]
    have hrun : ∀ k, m = .mesh → Writer.meshWords c.scan.scanCmd = .error k → k ≠ .KeyError := by
      intro k _ hk
      unfold Writer.meshWords at hk
      split at hk <;> simp_all
      subst hk
      simp
    have key : (retrieved env reg m (titles dataFile { ctx := c1, set := set }) =
        retrieved env reg m (titles dataFile { ctx := c, set := set })) ∨
        ∃ e, e ≠ .KeyError ∧ (retrieved env reg m (titles dataFile { ctx := c1, set := set })).2 = some e ∧
          (retrieved env reg m (titles dataFile { ctx := c, set := set })).2 = some e := by
      rw [ht]
      unfold retrieved
      rcases hm with rfl | rfl | rfl
      · left; simp only [titles, hrd1, hrd]
      · left; simp only [titles, hrd1, hrd]
      · simp only [titles, hrd1, hrd, hcmd]
        cases hw : Writer.meshWords c.scan.scanCmd with
        | ok w => left; rfl
        | error e => exact .inr ⟨e, hrun e rfl hw, rfl, rfl⟩
    unfold plotScan
    rw [if_neg (show ¬ (c1.scan.aborted = some abortText) from h), if_neg (by rw [hab]; simp)]
    rcases key with key | ⟨e, k1, k2, k3⟩
    · rw [key]
    · simp only [k2, k3]

omit [UniDB] in
theorem eval_inv {σ α : Type} {e : Except PyErr α} {s : σ} {f : α → Res σ} {o : σ}
    (h : Res.eval e s f = (o, none)) : ∃ a, e = .ok a ∧ f a = (o, none) := by
  cases e with
  | error e => cases h
  | ok a => exact ⟨a, rfl, h⟩

omit [UniDB] in
theorem hkl_range {s r : St} (ha : s.axes = []) (hd : s.data = []) (h1 : hklData s = (r, none)) {ra : Str} {n : Nat}
    (hrange : r.data.get? ra = some (.range n)) :
    ∃ xs : List PyFloat, xs.length = n ∧ (∀ i, i < n → xs[i]? = some (.fin ((i + 1 : Nat) : Rat))) ∧
      r.ctx.scan.data.get? p!"data point number" = some (.col xs) ∧
      r.ctx.scan.columnFirst = some p!"data point number" := by
  unfold hklData at h1
  obtain ⟨⟨xs, axis, found⟩, -, h1⟩ := eval_inv h1
  cases xs with
  | none => cases h1
  | some xs =>
    simp only at h1
    have hcol : ∀ (c2 : DCol) (last a : Str),
        ((s.data.set axis (PVal.col (.col xs))).set last (.col c2)).get? a ≠ some (.range n) := by
      intro c2 last a e
      rw [Dict.get?_set] at e
      split at e
      · cases e
      · rw [Dict.get?_set] at e
        split at e
        · cases e
        · rw [hd] at e; cases e
    split at h1
    · obtain ⟨last, -, h1⟩ := eval_inv h1
      split at h1
      · cases h1
      · cases h1
        exact absurd hrange (hcol _ _ _)
    · rw [if_neg (fun hne => hne ha)] at h1
      split at h1
      · cases h1
      · rename_i hcl
        obtain ⟨k, hk, h1⟩ := eval_inv h1
        obtain ⟨last, hl, h1⟩ := eval_inv h1
        split at h1
        · cases h1
        · cases h1
          simp only [Dict.get?_set] at hrange
          have hkn : k = n := by
            split at hrange
            · cases hrange
            · split at hrange
              · cases hrange; rfl
              · rw [hd] at hrange; cases hrange
          subst hkn
          refine ⟨_, ?_, ?_, Dict.get?_set_self _ _ _, rfl⟩
          · simp
          · intro i hi
            simp [hi]

/-- **C55**: an hkl plot against the point numbers 1 to n also leaves these numbers in the scan, as a new
column, and makes it the scan's first column. -/
theorem C55_point_numbers (set : Settings) (dataFile : Str) (td tp : Option Int) (c : ScanCtx)
    (n : Nat) (y : PVal) (t : Settings)
    (h : (plotScan env reg .hkl set dataFile td tp c).2 = .ok (some (.xy (.range n) y t))) :
    ∃ xs : List PyFloat, xs.length = n ∧ (∀ i, i < n → xs[i]? = some (.fin ((i + 1 : Nat) : Rat))) ∧
      (plotScan env reg .hkl set dataFile td tp c).1.scan.data.get? p!"data point number" = some (.col xs) ∧
      (plotScan env reg .hkl set dataFile td tp c).1.scan.columnFirst = some p!"data point number" := by
  obtain ⟨r, o, h1, h2, h3, h4, h5⟩ := plotScan_inv env reg h
  rw [h5]
  have ho : o.ctx = r.ctx ∧ o.data = r.data ∧ o.signal = r.signal ∧ o.axes = r.axes := by
    unfold options lineOptions at h2
    obtain ⟨a, -, h2⟩ := eval_inv h2
    cases h2; exact ⟨rfl, rfl, rfl, rfl⟩
  obtain ⟨o1, o2, o3, o4⟩ := ho
  rw [o1]
  have hrange : ∃ a, r.data.get? a = some (.range n) := by
    simp only [image, lineImage, o2, o3, o4] at h4
    cases hs : r.signal with
    | none => rw [hs] at h4; cases h4
    | some sig =>
      rw [hs] at h4
      simp only at h4
      split at h4
      · rename_i a _ _
        split at h4
        · rename_i x hx
          cases h4
          exact ⟨_, hx⟩
        · cases h4
      · cases h4
  obtain ⟨ra, hrange⟩ := hrange
  unfold retrieved at h1
  simp only at h1
  generalize hc1 : readAttr env reg p!"data" (titles dataFile { ctx := c, set := set }).ctx = rr at *
  obtain ⟨c1, e1⟩ := rr
  cases e1 with
  | some e => cases h1
  | none =>
    exact hkl_range rfl rfl h1 hrange

end
/-- a scan stopped after two points, read already -/
def stoppedDemo : ScanCtx :=
  (@interpretScan asciiDB demoEnv HKey.all (plotDemo p!"hklscan" [p!"#N 4", p!"#L H  K  L  I", p!"1 0 1 10", p!"1 0 1 20",
    p!"#C Mon.  Scan aborted after 2 points."])).1

/-- Cases that meet the hypotheses of these theorems. -/
theorem C55_nonvacuous_read : stoppedDemo.scan.aborted = some p!"Scan aborted after 2 points." ∧
    stoppedDemo.scan.date = p!"today" ∧
    (plotOf .hkl stoppedDemo).2 = .ok (some (.xy (.range 2) (.col (.col [.fin 10, .fin 20]))
      (lineTexts p!"f.dat" stoppedDemo.scan p!"data point number (hkl all held constant)" p!"I"))) ∧
    (plotOf .hkl stoppedDemo).1.scan.data.get? p!"data point number" = some (.col [.fin 1, .fin 2]) := by
  refine ⟨?_, ?_, ?_, ?_⟩ <;> decide +kernel

end S2N.Props
