import Verif.Props.OpensRead
import Verif.Props.FitsDemo
/-
A file which meets the conditions of C93 and C94, and files which show that they are needed.
-/
namespace S2N.Props
open S2N S2N.Py S2N.Spec

def opensLines : List Str := [p!"#E 1562611000", p!"#D Mon Jul 08 13:35:50 2019", p!"#C fourc User = me", p!"#O0 th  phi", p!"#o0 th phi",
  p!"#J0 one  two", p!"#j0 c1 c2", p!"", p!"#H0 x  y"]

def opensHeader : Str := join ['\n'] opensLines

def opensText : Str := join ['\n'] [p!"#F f.dat", opensHeader, fitRaw]

def opensTexts : List Str := [p!"#F f.dat", opensHeader, fitRaw]

theorem opens_dissect : dissectFile (.file (some opensText)) = .ok opensTexts := by decide +kernel

theorem opens_sections : ∀ texts, SectionsOf (fileLines opensText) texts → texts = opensTexts :=
  fun texts h => C01_unique _ _ _ h (C01_partition opensText opensTexts opens_dissect).2

theorem opens_clock : ClockReads demoEnv := by
  intro f s h
  have h : (Except.ok p!"Thu Jan  1 00:00:00 1970" : Except PyErr Str) = .ok s := h
  cases h
  have e : (strptimeSpec p!"Thu Jan  1 00:00:00 1970").isSome = true := by decide +kernel
  exact Option.isSome_iff_exists.1 e

theorem opens_lines : splitlines opensHeader = opensLines := by decide +kernel

theorem opens_kinds : @hOfKind asciiDB .O opensLines = [p!"#O0 th  phi"] ∧ @hOfKind asciiDB .o opensLines = [p!"#o0 th phi"] ∧
    @hOfKind asciiDB .J opensLines = [p!"#J0 one  two"] ∧ @hOfKind asciiDB .j opensLines = [p!"#j0 c1 c2"] ∧
    @hOfKind asciiDB .H opensLines = [p!"#H0 x  y"] ∧ @hOfKind asciiDB .C opensLines = [p!"#C fourc User = me"] ∧
    @hOfKind asciiDB .UXML opensLines = [] := by decide +kernel

theorem opens_header : @HeaderFits asciiDB demoEnv opensHeader := by
  obtain ⟨kO, ko, kJ, kj, -, -, kU⟩ := opens_kinds
  refine @HeaderFits.mk asciiDB _ _ ?_ ?_ ?_ ?_ ?_ ?_ ?_ <;> rw [opens_lines]
  · intro l hl
    cases hl
    refine .inr ⟨by decide, 1562611000, by decide +kernel, time_of_b (by decide +kernel)⟩
  · have h : (opensLines.all (fun l => !(@hKind asciiDB .D l) || dateB demoEnv (stripFirstWord l))) = true := by decide +kernel
    intro l hl hk
    have h1 := List.all_eq_true.1 h l hl
    rw [hk] at h1
    exact date_of_b h1
  · have h : (opensLines.all (fun l => match l.head? with | some c => !isSpace c | none => true)) = true := by decide +kernel
    intro l hl c hc
    have h1 := List.all_eq_true.1 h l hl
    rw [hc] at h1
    simpa using h1
  · have h : (opensLines.all (fun l => scanOnly.all (fun k => !(@hKind asciiDB k l)))) = true := by decide +kernel
    intro l hl k hk
    have h1 := List.all_eq_true.1 (List.all_eq_true.1 h l hl) k hk
    simpa using h1
  · intro _ r row hrow
    unfold wordTable at hrow ⊢
    rw [kj] at hrow
    rw [kJ]
    cases r with
    | zero => cases hrow; exact ⟨_, rfl, by decide +kernel⟩
    | succ r => simp at hrow
  · intro r row hrow
    unfold wordTable at hrow
    rw [ko] at hrow
    rw [kO]
    cases r with
    | zero => cases hrow; exact ⟨[p!"th", p!"phi"], by decide +kernel, by decide +kernel⟩
    | succ r => simp at hrow
  · rw [kU]; intro h; exact absurd rfl h

theorem opens_fits : @FileFits asciiDB demoEnv opensTexts := by
  refine @FileFits.mk asciiDB _ _ ?_ ?_ ?_
  · intro t ht
    simp only [opensTexts, List.mem_cons, List.not_mem_nil, or_false] at ht
    rcases ht with rfl | rfl | rfl
    · exact ⟨p!"f.dat", .inl rfl⟩
    · exact ⟨opensHeader.drop 3, .inr (.inl (by decide +kernel))⟩
    · exact ⟨fitRaw.drop 3, .inr (.inr (by decide +kernel))⟩
  · intro t ht hh
    simp only [opensTexts, List.mem_cons, List.not_mem_nil, or_false] at ht
    rcases ht with rfl | rfl | rfl
    · exact absurd hh (by decide +kernel)
    · exact opens_header
    · exact absurd hh (by decide +kernel)
  · intro t ht hh
    simp only [opensTexts, List.mem_cons, List.not_mem_nil, or_false] at ht
    rcases ht with rfl | rfl | rfl
    · exact absurd hh (by decide +kernel)
    · exact absurd hh (by decide +kernel)
    · refine ⟨[], p!"#D Mon Jul 08 13:35:50 2019", (splitlines fitRaw).drop 2, by decide +kernel, by simp, ?_, date_of_b (by decide +kernel)⟩
      unfold firstWordIs
      decide +kernel

theorem opens_scan : HasScanLine opensText := by
  have h : ((readlines (universalNewlines opensText)).any (fun l => l.take 3 == p!"#S ")) = true := by decide +kernel
  obtain ⟨l, h1, h2⟩ := List.any_eq_true.1 h
  refine ⟨l.drop 3, ?_⟩
  rw [show p!"#S " = l.take 3 from (eq_of_beq h2).symm, List.take_append_drop]
  exact h1

theorem C93_nonvacuous : ClockReads demoEnv ∧ (FourLineHeader opensText ∨ HasScanLine opensText) ∧
    (∀ texts, SectionsOf (fileLines opensText) texts → @FileFits asciiDB demoEnv texts) ∧
    summary (demoOpen opensText) = [(p!"1", fitRaw, opensHeader)] :=
  ⟨opens_clock, .inr opens_scan, fun texts h => by rw [opens_sections texts h]; exact opens_fits, by decide +kernel⟩

theorem opens_says : @HeaderSays asciiDB (@statedHeader asciiDB opensHeader) := @HeaderSays.mk asciiDB _ rfl rfl rfl rfl

theorem opens_text : @ScanTextFits asciiDB demoEnv opensHeader fitRaw := by
  obtain ⟨kO, -, -, -, kH, kC, -⟩ := opens_kinds
  have hO : (@statedHeader asciiDB opensHeader).O = fitHdr.O := by decide +kernel
  have hH : (@statedHeader asciiDB opensHeader).H = fitHdr.H := by decide +kernel
  have hC : (@statedHeader asciiDB opensHeader).comments = fitHdr.comments := by decide +kernel
  have h := fit_fits
  letI := asciiDB
  unfold ScanTextFits
  refine @ScanFits.mk asciiDB _ _ _ h.lines h.labels ?_ ?_ h.counters ?_ ?_ h.data h.uxml
  · intro _
    exact ⟨fun e he => (nomatch he), .inl (by decide)⟩
  · rw [hH]; exact h.metadata
  · rw [hO]; exact h.positions
  · intro hne
    obtain ⟨g1, g2, g3⟩ := h.geometry hne
    refine @GeometryFits.mk asciiDB _ _ g1 ?_ ?_
    · rw [hC]; exact g2
    · rw [hC]; exact g3

def opened : Sdf := match demoOpen opensText with | .ok s => s | .error _ => { fileName := [] }

theorem opened_eq : demoOpen opensText = .ok opened := by
  have h : isOk (demoOpen opensText) = true := by decide +kernel
  unfold opened
  cases e : demoOpen opensText with
  | ok s => rfl
  | error e1 => rw [e] at h; cases h

theorem C94_nonvacuous : demoOpen opensText = .ok opened ∧ opened.scans.keys = [p!"1"] ∧
    (∀ p ∈ opened.scans, @ScanTextFits asciiDB demoEnv (opened.headerOf p.2).raw p.2.raw) ∧
    (forEach (@readOne asciiDB demoEnv HKey.all) [(p!"1", p!"data"), (p!"1", p!"G"), (p!"1", p!"data")] opened).2 = none := by
  have hs : opened.scans.map (fun p => (p.1, p.2.raw, (opened.headerOf p.2).raw)) = [(p!"1", fitRaw, opensHeader)] := by decide +kernel
  have hk : opened.scans.keys = [p!"1"] := by decide +kernel
  have ht : ∀ p ∈ opened.scans, @ScanTextFits asciiDB demoEnv (opened.headerOf p.2).raw p.2.raw := by
    intro p hp
    have h1 : (p.1, p.2.raw, (opened.headerOf p.2).raw) ∈ opened.scans.map (fun p => (p.1, p.2.raw, (opened.headerOf p.2).raw)) :=
      List.mem_map.2 ⟨p, hp, rfl⟩
    rw [hs, List.mem_singleton, Prod.mk.injEq, Prod.mk.injEq] at h1
    rw [h1.2.1, h1.2.2]
    exact opens_text
  refine ⟨opened_eq, hk, ht, ?_⟩
  exact @C94_reads asciiDB demoEnv HKey.all (List.Perm.refl _) p!"demo.dat" ⟨.file (some opensText), 10, 100⟩ ⟨.file (some opensText), 10, 100⟩ opensText opens_clock rfl
    (fun texts h => by rw [opens_sections texts h]; exact opens_fits) opened opened_eq ht _ (by
      intro a ha
      have hb : opened.scans.has p!"1" = true := by decide +kernel
      simp only [List.mem_cons, List.not_mem_nil, or_false] at ha
      rcases ha with rfl | rfl | rfl <;> exact hb)

/-! ### The conditions are needed -/

def errOf (r : Except PyErr Sdf) : Option PyErr := match r with | .ok _ => none | .error e => some e

/-- Opening raises: for an indented line in a header; for a scan without #D; for #o without #O; for a line of white space before the #D of
a scan; for #S followed by a tab; for a #G line in a header; for a time that is no number. -/
theorem C93_needed :
    errOf (demoOpen p!"#E 10\n#C a\n  b\n#S 1 a\n#D Wed Jun 16 18:24:36 2010\n") = some .IndexError ∧
    errOf (demoOpen p!"#E 10\n#S 1 a\n#N 1\n") = some .ValueError ∧
    errOf (demoOpen p!"#E 10\n#o0 a b\n#S 1 a\n#D Wed Jun 16 18:24:36 2010\n") = some .IndexError ∧
    errOf (demoOpen p!"#E 10\n#S 1 a\n  \n#D Wed Jun 16 18:24:36 2010\n") = some .IndexError ∧
    errOf (demoOpen p!"#E 10\n#S 2 b\n#D Wed Jun 16 18:24:36 2010\n#S\t1 a\n#D Wed Jun 16 18:24:36 2010\n") = some .AttributeError ∧
    errOf (demoOpen p!"#E 10\n#G0 1 2\n#S 1 a\n#D Wed Jun 16 18:24:36 2010\n") = some .AttributeError ∧
    errOf (demoOpen p!"#E x\n#S 1 a\n#D Wed Jun 16 18:24:36 2010\n") = some .ValueError ∧
    errOf (demoOpen p!"#E 10\n#S 1 a\n#D Wed Jun 16 2010\n") = some .ValueError ∧
    errOf (demoOpen p!"#E 10\n#S 1 a\n#D Wed Jun 16 18:24:36 2010\n") = none := by
  decide +kernel

end S2N.Props
