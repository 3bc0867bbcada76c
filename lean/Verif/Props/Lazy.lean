import Verif.Props.Tables
/-
C19, C20: lazy interpretation of scans.
-/
namespace S2N.Spec
open S2N S2N.Py

/-- what a user does with a scan object: read an attribute, or call `interpret()` -/
inductive Op
  | read (attr : Str)
  | interpret

/-- one use of a scan object -/
def Op.run [UniDB] (env : Env) (reg : List HKey) : Op → ScanCtx → Res ScanCtx
  | .read a, c => readAttr env reg a c
  | .interpret, c => interpretScan env reg c

/-- the use needs the content of the scan -/
def Op.needs : Op → Bool
  | .read a => lazyAttributes.contains a
  | .interpret => true

/-- scans of a file that share one header -/
structure Shared where
  scans : List Obj
  hdr : Obj

/-- use the content of the `i`-th scan; an exception does not stop the user -/
def Shared.touch [UniDB] (env : Env) (reg : List HKey) (w : Shared) (i : Nat) : Shared :=
  match w.scans[i]? with
  | none => w
  | some x =>
    let c := (interpretScan env reg ⟨x, w.hdr⟩).1
    ⟨w.scans.set i c.scan, c.hdr⟩

end S2N.Spec

namespace S2N.Props
open S2N S2N.Py S2N.Spec

section
variable [UniDB] (env : Env) (reg : List HKey)

/-- after success, the scan is marked -/
theorem interpret_marks (c : ScanCtx) (hi : c.scan.interpreted = false)
    (hok : (interpretScan env reg c).2 = none) :
    (interpretScan env reg c).1.scan.interpreted = true ∧ (interpretScan env reg c).1.scan.lazy = false := by
  obtain ⟨c1, c2, e1, e2, e3⟩ := interpret_ok env reg c hi hok
  rw [e3]
  refine ⟨rfl, ?_⟩
  have h2 := forEach_pres (runPost env) (fun c => c.scan.lazy) c1.scan.post.values
    (fun f _ c => pp_lazy env f c) c1
  rw [e2] at h2
  have h1 := forEach_pres (scanLine env reg) (fun c => c.scan.lazy) (scanLines c.scan.raw)
    (fun l _ s => by
      rw [scanLine_eq]
      split
      · rfl
      · exact ps_lazy env _ l s) { c with scan := { c.scan with lazy := false } }
  rw [e1] at h1
  exact h2.trans h1

/-- **C19.**  For a scan as read from the file, whose interpretation does not raise: after any
history of attribute reads and `interpret()` calls, in any order and number, the scan is as it was
read if none of them needed its content, else it is exactly the result of a single interpretation.
No step of the history raises.  (So the first lazy attribute read does not matter, and later
accesses change nothing.) -/
theorem C19_history (c : ScanCtx) (hf : Fresh c.scan) (hok : (interpretScan env reg c).2 = none)
    (ops : List Op) :
    forEach (Op.run env reg) ops c =
      Res.ok (if ops.any Op.needs then (interpretScan env reg c).1 else c) := by
  have hi := fresh_interpreted hf
  have hlz : c.scan.lazy = true := by obtain ⟨_, _, _, _, _, _, _, _, _, e⟩ := hf; rw [e]; rfl
  obtain ⟨m1, m2⟩ := interpret_marks env reg c hi hok
  have done : ∀ ops : List Op, forEach (Op.run env reg) ops (interpretScan env reg c).1 =
      Res.ok (interpretScan env reg c).1 := by
    intro ops
    induction ops with
    | nil => rfl
    | cons o ops ih =>
      have : Op.run env reg o (interpretScan env reg c).1 = Res.ok (interpretScan env reg c).1 := by
        generalize hc' : (interpretScan env reg c).1 = c' at *
        cases o with
        | read a => simp [Op.run, readAttr, m2]
        | interpret => simp [Op.run, interpretScan, m1]
      simp only [forEach, this]
      exact ih
  induction ops with
  | nil => rfl
  | cons o ops ih =>
    by_cases ho : o.needs = true
    · have h1 : Op.run env reg o c = interpretScan env reg c := by
        cases o with
        | read a =>
          simp only [Op.needs, List.contains_iff_mem] at ho
          simp only [Op.run, readAttr]
          rw [if_pos ⟨by simpa using ho, hlz⟩]
        | interpret => rfl
      simp only [forEach, h1, List.any_cons, ho, Bool.true_or, if_true]
      rw [Res.andThen_of_none hok]
      exact done ops
    · have h1 : Op.run env reg o c = Res.ok c := by
        cases o with
        | read a =>
          simp only [Op.needs] at ho
          simp only [Op.run, readAttr]
          rw [if_neg (fun h => ho (by simpa using h.1))]
        | interpret => exact absurd rfl ho
      simp only [forEach, h1, List.any_cons, Bool.eq_false_iff.2 ho, Bool.false_or]
      exact ih

/-- `#D` leaves a header with a date alone -/
theorem dateHdr_hdr (c : ScanCtx) (hd : strip c.hdr.date ≠ []) : (dateHdr env c).1.hdr = c.hdr := by
  have : (strip c.hdr.date).length ≠ 0 := fun h => hd (List.eq_nil_of_length_eq_zero h)
  unfold dateHdr
  simp only [Res.ok, Res.raise, Res.eval, if_neg this]
  repeat' split
  all_goals rfl

theorem ps_hdr_keep (k : HKey) (t : Str) (c : ScanCtx) (hO : k ≠ .O) (hd : strip c.hdr.date ≠ []) :
    (procScan env k t c).1.hdr = c.hdr := by
  by_cases hD : k = .D
  · subst hD
    simp only [procScan, Res.andThen]
    split
    · exact dateHdr_hdr env _ hd
    · rfl
  · exact ps_hdr env k t c hO hD

/-- the header is left alone -/
theorem interp_hdr_keep (hr : reg.Perm HKey.all) (c : ScanCtx)
    (hO : ofKind .O (scanLines c.scan.raw) = []) (hd : strip c.hdr.date ≠ []) :
    (interpretScan env reg c).1.hdr = c.hdr := by
  have lines : ∀ (ls : List Str) (s : ScanCtx), (∀ l ∈ ls, '\n' ∉ l) → ofKind .O ls = [] →
      strip s.hdr.date ≠ [] → (forEach (scanLine env reg) ls s).1.hdr = s.hdr := by
    intro ls
    induction ls with
    | nil => intro s _ _ _; rfl
    | cons l ls ih =>
      intro s hn hk hd
      have hkl : isKind .O l = false := by
        have := List.filter_eq_nil_iff.1 hk l (by simp)
        simpa using this
      have hstep : (scanLine env reg l s).1.hdr = s.hdr := by
        rw [scanLine_eq]
        cases he : effKey reg l with
        | none => rfl
        | some k =>
          refine ps_hdr_keep env k l s ?_ hd
          rintro rfl
          rw [(effKey_iff reg hr l (hn l (by simp)) .O (by simp) (by simp)).1 he] at hkl
          cases hkl
      simp only [forEach, Res.andThen]
      split
      · rw [ih _ (fun x hx => hn x (by simp [hx])) (by
          apply List.filter_eq_nil_iff.2
          intro x hx
          exact List.filter_eq_nil_iff.1 hk x (by simp [hx])) (by rw [hstep]; exact hd), hstep]
      · exact hstep
  unfold interpretScan
  split
  · rfl
  · simp only [Res.andThen]
    have h1 := lines (scanLines c.scan.raw) { c with scan := { c.scan with lazy := false } }
      (scanLines_no_nl _) hO hd
    split
    · have h2 := forEach_pres (runPost env) (fun c => c.hdr)
        (forEach (scanLine env reg) (scanLines c.scan.raw)
          { c with scan := { c.scan with lazy := false } }).1.scan.post.values
        (fun f _ c => pp_hdr env f c)
        (forEach (scanLine env reg) (scanLines c.scan.raw)
          { c with scan := { c.scan with lazy := false } }).1
      split
      · exact h2.trans h1
      · exact h2.trans h1
    · exact h1

/-- **C20.**  Scans that share a header, none with #O lines, the header having a date, and each
of them interpretable: whatever scans are used, in whatever order and how often, each scan used
ends with the content that it would have if it alone had been used, the others are as read, and
the header is unchanged. -/
theorem C20_order (hr : reg.Perm HKey.all) (w : Shared)
    (hf : ∀ x ∈ w.scans, Fresh x ∧ ofKind .O (scanLines x.raw) = [] ∧
      (interpretScan env reg ⟨x, w.hdr⟩).2 = none)
    (hd : strip w.hdr.date ≠ []) (is : List Nat) :
    (is.foldl (Shared.touch env reg) w).hdr = w.hdr ∧
    (is.foldl (Shared.touch env reg) w).scans =
      w.scans.mapIdx (fun i x => if i ∈ is then (interpretScan env reg ⟨x, w.hdr⟩).1.scan else x) := by
  induction is using List.reverseRecOn with
  | nil =>
    refine ⟨rfl, ?_⟩
    apply List.ext_getElem?
    intro i
    simp
  | append_singleton is j ih =>
    rw [List.foldl_append, List.foldl_cons, List.foldl_nil]
    obtain ⟨h1, h2⟩ := ih
    generalize hw : is.foldl (Shared.touch env reg) w = w' at h1 h2 ⊢
    clear hw
    unfold Shared.touch
    rw [h1, h2]
    simp only [List.getElem?_mapIdx]
    cases hj : w.scans[j]? with
    | none =>
      simp only [Option.map_none]
      refine ⟨h1, ?_⟩
      rw [h2]
      apply List.ext_getElem?
      intro i
      simp only [List.getElem?_mapIdx]
      by_cases e : i = j
      · subst e; rw [hj]; rfl
      · simp [e]
    | some x =>
      obtain ⟨f1, f2, f3⟩ := hf x (List.mem_of_getElem? hj)
      simp only [Option.map_some]
      have hi := fresh_interpreted f1
      obtain ⟨m1, m2⟩ := interpret_marks env reg ⟨x, w.hdr⟩ hi f3
      have hk : (interpretScan env reg ⟨x, w.hdr⟩).1.hdr = w.hdr :=
        interp_hdr_keep env reg hr ⟨x, w.hdr⟩ f2 hd
      have key : (interpretScan env reg ⟨if j ∈ is then (interpretScan env reg ⟨x, w.hdr⟩).1.scan
          else x, w.hdr⟩).1 = (interpretScan env reg ⟨x, w.hdr⟩).1 := by
        split
        · have : (⟨(interpretScan env reg ⟨x, w.hdr⟩).1.scan, w.hdr⟩ : ScanCtx) =
              (interpretScan env reg ⟨x, w.hdr⟩).1 := by
            generalize (interpretScan env reg ⟨x, w.hdr⟩).1 = c' at hk
            cases c'
            simp only at hk
            rw [hk]
          rw [this]
          generalize (interpretScan env reg ⟨x, w.hdr⟩).1 = c' at *
          simp [interpretScan, m1, Res.ok]
        · rfl
      rw [key]
      refine ⟨hk, ?_⟩
      apply List.ext_getElem?
      intro i
      rw [List.getElem?_set]
      simp only [List.getElem?_mapIdx, List.length_mapIdx]
      by_cases e : j = i
      · subst e
        have : j < w.scans.length := by
          rcases Nat.lt_or_ge j w.scans.length with h | h
          · exact h
          · rw [List.getElem?_eq_none h] at hj; cases hj
        simp [this]
        rw [List.getElem?_eq_getElem this] at hj
        cases hj; rfl
      · rw [if_neg e]
        simp [Ne.symm e]

end

/-- C19 and C20 are not vacuous. -/
theorem C19_nonvacuous :
    Fresh demoScan.scan ∧ (@interpretScan asciiDB demoEnv HKey.all demoScan).2 = none ∧
    lazyAttributes.contains p!"data" = true ∧ lazyAttributes.contains p!"raw" = false ∧
    @ofKind asciiDB .O (scanLines demoScan.scan.raw) = [] ∧ strip demoScan.hdr.date ≠ [] := by
  refine ⟨demo_fresh, ?_⟩
  decide +kernel

/-- The limits of C19: a scan whose interpretation fails is left half interpreted, and the second
read of the same attribute does not raise: it silently returns what is there. -/
def failScan : ScanCtx :=
  ⟨Obj.newScan p!"f.dat" 0 (join ['\n'] [p!"#S 1 ascan", p!"#N x", p!"#C late"]),
   { Obj.newHeader p!"f.dat" [] with date := p!"x" }⟩

theorem C19_failure :
    (@readAttr asciiDB demoEnv HKey.all p!"comments" failScan).2 = some .ValueError ∧
    (@readAttr asciiDB demoEnv HKey.all p!"comments"
      (@readAttr asciiDB demoEnv HKey.all p!"comments" failScan).1).2 = none ∧
    (@readAttr asciiDB demoEnv HKey.all p!"comments"
      (@readAttr asciiDB demoEnv HKey.all p!"comments" failScan).1).1.scan.comments = [] := by
  decide +kernel

/-- The limits of C20: with #O lines in a scan, the order matters. -/
def sharedO : Shared :=
  ⟨[Obj.newScan p!"f.dat" 0 (join ['\n'] [p!"#S 1 ascan", p!"#O0 a", p!"#P0 1"]),
    Obj.newScan p!"f.dat" 0 (join ['\n'] [p!"#S 2 ascan", p!"#P0 2"])],
   { Obj.newHeader p!"f.dat" [] with date := p!"x" }⟩

theorem C20_O_lines_matter :
    ([0, 1].foldl (@Shared.touch asciiDB demoEnv HKey.all) sharedO).scans[1]?.map (·.positioner) =
      some [(p!"a", .fin 2)] ∧
    ([1, 0].foldl (@Shared.touch asciiDB demoEnv HKey.all) sharedO).scans[1]?.map (·.positioner) = some [] := by
  decide +kernel

end S2N.Props
