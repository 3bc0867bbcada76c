import Verif.Lemmas.Header
import Verif.Props.Tables
/-
C31: cross references of mnemonics and names in a header.
-/
namespace S2N.Spec
open S2N S2N.Py

/-- Every entry of the first table has an entry at the same place of the second. -/
def Covers {α β : Type} (a : List (List α)) (b : List (List β)) : Prop :=
  ∀ (r : Nat) (row : List α), a[r]? = some row → ∃ row', b[r]? = some row' ∧ row.length ≤ row'.length

/-- A header object as `SpecDataFile.read()` creates it from an #E section. -/
def FreshHeader (x : Obj) : Prop :=
  ∃ fileName raw epoch, x = { Obj.newHeader fileName raw with epoch := some epoch }

/-- rows of names on #O lines: a line #O0 starts anew -/
def namesTable (lines : List Str) : List (List Str) :=
  lines.foldl (fun rows l => (if (splitWs l).head? = some p!"#O0" then [] else rows) ++ [namesO l]) []

end S2N.Spec

namespace S2N.Props
open S2N S2N.Py S2N.Spec

theorem xrefRow_eq : ∀ (ms ns : List Str) (d : Dict Str),
    xrefRow ms ns d = ((ms.zip ns).foldl (fun d kv => d.set kv.1 kv.2) d,
      if ms.length ≤ ns.length then none else some .IndexError)
  | [], ns, d => by simp [xrefRow, Res.ok]
  | m :: ms, [], d => by simp [xrefRow, Res.raise]
  | m :: ms, n :: ns, d => by rw [xrefRow, xrefRow_eq ms ns]; simp

theorem covers_cons {α β : Type} (a : List α) (as : List (List α)) (b : List β) (bs : List (List β)) :
    Covers (a :: as) (b :: bs) ↔ a.length ≤ b.length ∧ Covers as bs := by
  constructor
  · intro h
    refine ⟨?_, fun r row hr => ?_⟩
    · obtain ⟨r', e, h⟩ := h 0 a rfl
      simp at e; subst e; exact h
    · obtain ⟨r', e, h⟩ := h (r + 1) row (by simpa using hr)
      exact ⟨r', by simpa using e, h⟩
  · rintro ⟨h1, h2⟩ r row hr
    cases r with
    | zero => simp at hr; subst hr; exact ⟨b, rfl, h1⟩
    | succ r => simpa using h2 r row (by simpa using hr)

theorem xrefRows_ok : ∀ (js Js : List (List Str)) (d : Dict Str), (xrefRows js Js d).2 = none →
    Covers js Js ∧ (xrefRows js Js d).1 =
      (pairTables js Js).foldl (fun d kv => d.set kv.1 kv.2) d
  | [], Js, d, _ => by simp [xrefRows, Res.ok, Covers, pairTables]
  | j :: js, [], d, h => by simp [xrefRows, Res.raise] at h
  | j :: js, J :: Js, d, h => by
    rw [xrefRows] at h ⊢
    obtain ⟨g1, g2, g3⟩ := andThen_none h
    obtain ⟨h1, h2⟩ := xrefRows_ok js Js _ g3
    rw [g2, h2, covers_cons]
    rw [xrefRow_eq] at g1 ⊢
    refine ⟨⟨?_, h1⟩, ?_⟩
    · by_contra hc; simp [hc] at g1
    · simp [pairTables]

theorem xrefRows_err : ∀ (js Js : List (List Str)) (d : Dict Str), ¬ Covers js Js →
    (xrefRows js Js d).2 = some .IndexError
  | [], Js, d, h => by simp [Covers] at h
  | j :: js, [], d, h => rfl
  | j :: js, J :: Js, d, h => by
    rw [covers_cons] at h
    rw [xrefRows, xrefRow_eq]
    by_cases hl : j.length ≤ J.length
    · rw [if_pos hl, Res.andThen_of_none rfl]
      exact xrefRows_err js Js _ (fun h2 => h ⟨hl, h2⟩)
    · rw [if_neg hl, Res.andThen_of_some rfl]

/-- **C31**, missing names: the cross reference of counters raises IndexError as soon as a
mnemonic has no name at its place. -/
theorem C31_missing_counter (x : Obj) (j J : List (List Str)) (hj : x.j = some j) (hJ : x.J = some J)
    (h : ¬ Covers j J) : (counterXref x).2 = some .IndexError := by
  simp only [counterXref, hj, hJ]
  exact xrefRows_err j J _ h

/-- **C31**, missing names of positioners -/
theorem C31_missing_positioner (x : Obj) (o O : List (List Str)) (ho : x.o = some o) (hO : x.O = some O)
    (h : ¬ Covers o O) : (positionerXref x).2 = some .IndexError := by
  simp only [positionerXref, ho, hO]
  exact xrefRows_err o O _ h

theorem ph_counter (env : Env) (f : PostFn) (x : Obj) (h : postLabel f ≠ p!"counter cross-referencing") :
    (runPostHdr env f x).1.counterXref = x.counterXref := by
  cases f <;> first | exact absurd rfl h | skip
  all_goals
    simp only [runPostHdr, positionerXref, postUXML, Res.andThen, Res.ok, Res.raise, Res.eval,
      Obj.addH5] <;> (repeat' split) <;> rfl

theorem ph_positioner (env : Env) (f : PostFn) (x : Obj) (h : f ≠ .positionerXref) :
    (runPostHdr env f x).1.positionerXref = x.positionerXref := by
  cases f <;> first | exact absurd rfl h | skip
  all_goals
    simp only [runPostHdr, counterXref, postUXML, Res.andThen, Res.ok, Res.raise, Res.eval,
      Obj.addH5] <;> (repeat' split) <;> rfl

theorem ph_names (env : Env) (f : PostFn) (x : Obj) :
    (runPostHdr env f x).1.j = x.j ∧ (runPostHdr env f x).1.J = x.J ∧
    (runPostHdr env f x).1.o = x.o ∧ (runPostHdr env f x).1.O = x.O := by
  cases f
  all_goals
    simp only [runPostHdr, counterXref, positionerXref, postUXML, Res.andThen, Res.ok, Res.raise, Res.eval,
      Obj.addH5]
    (repeat' split) <;> simp

section
variable [UniDB] (env : Env) (reg : List HKey) (hr : reg.Perm HKey.all)

omit [UniDB] in
theorem foldl_getD_append {α β : Type} (f : α → β) : ∀ (as : List α) (b : Option (List β)),
    as.foldl (fun b a => some (b.getD [] ++ [f a])) b =
      if as = [] then b else some (b.getD [] ++ as.map f)
  | [], b => rfl
  | a :: as, b => by
    rw [List.foldl_cons, foldl_getD_append f as]
    cases as <;> simp

omit [UniDB] in
theorem splitlines_no_nl (s : Str) : ∀ l ∈ splitlines s, '\n' ∉ l := by
  intro l hl hn
  have := splitlines_no_break _ l hl '\n' hn
  exact absurd this (by decide)

include hr in
/-- the tables of names and mnemonics of a header, after its lines -/
theorem hdr_tables (c c1 : HCtx) (hf : FreshHeader c.hdr)
    (e1 : forEach (hdrLine env reg) (splitlines c.hdr.raw) c = (c1, none)) :
    let lines := splitlines c.hdr.raw
    let rows := fun (k : HKey) => (hOfKind k lines).map (fun l => splitWs (stripFirstWord l))
    (c1.hdr.j = if hOfKind .j lines = [] then none else some (rows .j)) ∧
    (c1.hdr.J = if hOfKind .J lines = [] then none else some (rows .J)) ∧
    (c1.hdr.o = if hOfKind .o lines = [] then none else some (rows .o)) ∧
    c1.hdr.O = some (namesTable (hOfKind .O lines)) := by
  intro lines rows
  have hok : (forEach (hdrLine env reg) lines c).2 = none := by rw [e1]
  have hn := splitlines_no_nl c.hdr.raw
  have init : c.hdr.j = none ∧ c.hdr.J = none ∧ c.hdr.o = none ∧ c.hdr.O = some [] := by
    obtain ⟨_, _, _, e⟩ := hf; rw [e]; exact ⟨rfl, rfl, rfl, rfl⟩
  obtain ⟨i1, i2, i3, i4⟩ := init
  have hj := hlines_kind env reg hr .j (by simp) (by simp) (by simp) (·.j)
    (fun l b => some (b.getD [] ++ [splitWs (stripFirstWord l)])) (fun _ _ _ => rfl)
    (fun k t x hk => po_j env k t x hk) lines hn c hok
  have hJ := hlines_kind env reg hr .J (by simp) (by simp) (by simp) (·.J)
    (fun l b => some (b.getD [] ++ [splitWs (stripFirstWord l)])) (fun _ _ _ => rfl)
    (fun k t x hk => po_J env k t x hk) lines hn c hok
  have ho := hlines_kind env reg hr .o (by simp) (by simp) (by simp) (·.o)
    (fun l b => some (b.getD [] ++ [splitWs (stripFirstWord l)])) (by
      intro t x _
      simp only [procObj, proco, Res.ok, Obj.addPost]
      have : strip (stripFirstWord t) = stripFirstWord t := by
        have := C33_trimmed t; exact strip_strip _
      rw [this]
      split
      · next h => rw [h]; rfl
      · rfl)
    (fun k t x hk => po_o env k t x hk) lines hn c hok
  have hO := hlines_kind env reg hr .O (by simp) (by simp) (by simp) (·.O)
    (fun l b => some ((if (splitWs l).head? = some p!"#O0" then [] else b.getD []) ++ [namesO l]))
    (by
      intro t x hx
      simp only [procObj, procO, Res.eval, firstWord] at hx ⊢
      cases hw : splitWs t with
      | nil => rw [hw] at hx; simp [Res.raise] at hx
      | cons w ws =>
        rw [hw] at hx
        simp only [List.head?_cons, Option.some.injEq] at hx ⊢
        by_cases h0 : w = p!"#O0"
        · simp only [h0, if_true] at hx ⊢
          simp [Res.ok]
        · simp only [h0, if_false] at hx ⊢
          cases hxo : x.O with
          | none => rw [hxo] at hx; simp [Res.raise] at hx
          | some r => simp [Res.ok])
    (fun k t x hk => po_O env k t x hk) lines hn c hok
  rw [e1] at hj hJ ho hO
  simp only [i1, i2, i3, i4] at hj hJ ho hO
  rw [foldl_getD_append] at hj hJ ho
  refine ⟨by simpa using hj, by simpa using hJ, by simpa using ho, ?_⟩
  rw [hO]
  generalize hOfKind .O lines = ls
  unfold namesTable
  have : ∀ b : List (List Str), ls.foldl (fun b l => some ((if (splitWs l).head? = some p!"#O0"
      then [] else b.getD []) ++ [namesO l])) (some b) = some (ls.foldl (fun rows l =>
        (if (splitWs l).head? = some p!"#O0" then [] else rows) ++ [namesO l]) b) := by
    induction ls with
    | nil => intro b; rfl
    | cons l ls ih => intro b; rw [List.foldl_cons, List.foldl_cons, ← ih]; rfl
  exact this []

include hr in
theorem hdr_ran (c c1 c2 : HCtx) (hf : FreshHeader c.hdr) (L : Str)
    {β γ : Type} (π : Obj → β) (ins : Obj → γ)
    (h1 : ∀ f x, postLabel f ≠ L → π (runPostHdr env f x).1 = π x)
    (h2 : ∀ f x, postLabel f ≠ L → ins (runPostHdr env f x).1 = ins x)
    (e1 : forEach (hdrLine env reg) (splitlines c.hdr.raw) c = (c1, none))
    (e2 : forEach (fun f => HCtx.onHdr (runPostHdr env f)) c1.hdr.post.values c1 = (c2, none))
    (k : HKey) (hk : (postOf k).map postLabel = some L) (hP : k ≠ .P)
    (hl : hOfKind k (splitlines c.hdr.raw) ≠ []) :
    ∃ f x, postLabel f = L ∧ ins x = ins c1.hdr ∧ (runPostHdr env f x).2 = none ∧
      π c2.hdr = π (runPostHdr env f x).1 := by
  have hp := hlines_post env reg (splitlines c.hdr.raw) c (by rw [e1])
  rw [e1] at hp
  have hp0 : c.hdr.post = [] := by obtain ⟨_, _, _, e⟩ := hf; rw [e]; rfl
  rw [hp0] at hp
  have hi : PostInv c1.hdr.post := by
    show PostInv (c1, (none : Option PyErr)).1.hdr.post
    rw [hp]; exact postFold_inv _ _ ⟨by simp [Dict.keys], by simp⟩
  have hL : L ∈ c1.hdr.post.keys := by
    show L ∈ (c1, (none : Option PyErr)).1.hdr.post.keys
    rw [hp, postFold_keys]
    right
    obtain ⟨l, hl⟩ := List.exists_mem_of_ne_nil _ hl
    obtain ⟨hl1, hl2⟩ := List.mem_filter.1 hl
    refine ⟨k, ?_, hk⟩
    simp only [ne_eq, decide_not, List.mem_filter, Bool.not_eq_eq_eq_not, Bool.not_true,
      decide_eq_false_iff_not]
    refine ⟨List.mem_filterMap.2 ⟨l, hl1, ?_⟩, hP⟩
    apply (hEff_iff reg hr l (splitlines_no_nl _ l hl1) k ?_ ?_).2 hl2 <;>
      (rintro rfl; simp [postOf] at hk)
  obtain ⟨f, hf1, hf2⟩ := filter_label hi L hL
  obtain ⟨c', a1, a2, a3⟩ := ran_once (fun f => HCtx.onHdr (runPostHdr env f))
    (fun g => postLabel g == L) f (fun c => π c.hdr) (fun c => ins c.hdr)
    (fun f c h => h1 f c.hdr (by simpa using h)) (fun f c h => h2 f c.hdr (by simpa using h))
    _ c1 c2 e2 hf2
  exact ⟨f, c'.hdr, hf1, a1, a2, a3⟩

include hr in
/-- **C31**, counters.  After a header with #j and #J lines was interpreted without exception,
`header.counter_xref` maps each mnemonic of the #j lines to the name at the same row and column of
the #J lines (mnemonics in order of first appearance, the last one winning if repeated), and every
mnemonic has a name. -/
theorem C31_counters (c : HCtx) (hf : FreshHeader c.hdr) (hok : (interpretHeader env reg c).2 = none)
    (hj : hOfKind .j (splitlines c.hdr.raw) ≠ []) (hJ : hOfKind .J (splitlines c.hdr.raw) ≠ []) :
    let rows := fun (k : HKey) => (hOfKind k (splitlines c.hdr.raw)).map
      (fun l => splitWs (stripFirstWord l))
    Covers (rows .j) (rows .J) ∧
    ∃ d, (interpretHeader env reg c).1.hdr.counterXref = some d ∧
      LastWins d (pairTables (rows .j) (rows .J)) := by
  intro rows
  obtain ⟨c1, c2, e1, e2, e3⟩ := hinterpret_ok env reg c hok
  obtain ⟨t1, t2, t3, t4⟩ := hdr_tables env reg hr c c1 hf e1
  rw [if_neg hj] at t1
  rw [if_neg hJ] at t2
  have hcx : c1.hdr.counterXref = none := by
    have := hlines_fold env reg (·.counterXref) (fun _ _ b => b)
      (fun k t x _ _ => po_counterXref env k t x) (fun _ _ => rfl) (splitlines c.hdr.raw) c (by rw [e1])
    rw [e1] at this
    rw [this]
    have h0 : c.hdr.counterXref = none := by obtain ⟨_, _, _, e⟩ := hf; rw [e]; rfl
    rw [h0]
    clear * -
    induction splitlines c.hdr.raw with
    | nil => rfl
    | cons l ls ih => rw [List.foldl_cons]; split <;> exact ih
  obtain ⟨f, x, f1, f2, f3, f4⟩ := hdr_ran env reg hr c c1 c2 hf p!"counter cross-referencing"
    (·.counterXref) (fun x => (x.j, x.J, x.counterXref))
    (fun f x h => ph_counter env f x h)
    (fun f x h => by
      obtain ⟨a, b, _, _⟩ := ph_names env f x
      simp only [a, b, ph_counter env f x h]) e1 e2 .j rfl (by simp) hj
  simp only [Prod.mk.injEq] at f2
  obtain ⟨g1, g2, g3⟩ := f2
  rw [t1] at g1
  rw [t2] at g2
  rw [hcx] at g3
  rw [e3]
  have hcr : (counterXref x).2 = none ∧ (runPostHdr env f x).1.counterXref = (counterXref x).1.counterXref := by
    cases f <;> first | (exfalso; revert f1; decide) | skip
    all_goals
      simp only [runPostHdr] at f3 ⊢
      obtain ⟨h1, h2, h3⟩ := andThen_none f3
      exact ⟨h1, by rw [h2]; rfl⟩
  rw [f4, hcr.2]
  have h1 := hcr.1
  simp only [counterXref, g1, g2, g3, Option.getD_none] at h1 ⊢
  obtain ⟨q1, q2⟩ := xrefRows_ok _ _ _ h1
  refine ⟨q1, _, rfl, ?_⟩
  rw [q2]
  simpa using lastWins_foldl (pairTables (rows .j) (rows .J)) [] [] lastWins_nil

include hr in
/-- **C31**, positioners: the same for `header.positioner_xref` and #o, #O lines. -/
theorem C31_positioners (c : HCtx) (hf : FreshHeader c.hdr) (hok : (interpretHeader env reg c).2 = none)
    (ho : hOfKind .o (splitlines c.hdr.raw) ≠ []) :
    let o := (hOfKind .o (splitlines c.hdr.raw)).map (fun l => splitWs (stripFirstWord l))
    let O := namesTable (hOfKind .O (splitlines c.hdr.raw))
    Covers o O ∧
    ∃ d, (interpretHeader env reg c).1.hdr.positionerXref = some d ∧ LastWins d (pairTables o O) := by
  intro o O
  obtain ⟨c1, c2, e1, e2, e3⟩ := hinterpret_ok env reg c hok
  obtain ⟨t1, t2, t3, t4⟩ := hdr_tables env reg hr c c1 hf e1
  rw [if_neg ho] at t3
  have hcx : c1.hdr.positionerXref = none := by
    have := hlines_fold env reg (·.positionerXref) (fun _ _ b => b)
      (fun k t x _ _ => po_positionerXref env k t x) (fun _ _ => rfl) (splitlines c.hdr.raw) c (by rw [e1])
    rw [e1] at this
    rw [this]
    have h0 : c.hdr.positionerXref = none := by obtain ⟨_, _, _, e⟩ := hf; rw [e]; rfl
    rw [h0]
    clear * -
    induction splitlines c.hdr.raw with
    | nil => rfl
    | cons l ls ih => rw [List.foldl_cons]; split <;> exact ih
  have hne : ∀ f : PostFn, postLabel f ≠ p!"positioner cross-referencing" → f ≠ .positionerXref := by
    rintro f h rfl; exact h rfl
  obtain ⟨f, x, f1, f2, f3, f4⟩ := hdr_ran env reg hr c c1 c2 hf p!"positioner cross-referencing"
    (·.positionerXref) (fun x => (x.o, x.O, x.positionerXref))
    (fun f x h => ph_positioner env f x (hne f h))
    (fun f x h => by
      obtain ⟨_, _, a, b⟩ := ph_names env f x
      simp only [a, b, ph_positioner env f x (hne f h)]) e1 e2 .o rfl (by simp) ho
  simp only [Prod.mk.injEq] at f2
  obtain ⟨g1, g2, g3⟩ := f2
  rw [t3] at g1
  rw [t4] at g2
  rw [hcx] at g3
  rw [e3]
  have hcr : (positionerXref x).2 = none ∧
      (runPostHdr env f x).1.positionerXref = (positionerXref x).1.positionerXref := by
    cases f <;> first | (exfalso; revert f1; decide) | skip
    all_goals
      simp only [runPostHdr] at f3 ⊢
      obtain ⟨h1, h2, h3⟩ := andThen_none f3
      exact ⟨h1, by rw [h2]; rfl⟩
  rw [f4, hcr.2]
  have h1 := hcr.1
  simp only [positionerXref, g1, g2, g3, Option.getD_none] at h1 ⊢
  obtain ⟨q1, q2⟩ := xrefRows_ok _ _ _ h1
  refine ⟨q1, _, rfl, ?_⟩
  rw [q2]
  simpa using lastWins_foldl (pairTables o O) [] [] lastWins_nil

end

/-- a header with two rows of positioners and counters -/
def demoHdr : HCtx :=
  ⟨Obj.newHeader p!"f.dat" (join ['\n'] [p!"#E 1562611000", p!"#D Mon Jul 08 13:35:50 2019",
    p!"#C fourc", p!"#O0 Theta  Two Theta", p!"#O1 Chi", p!"#o0 th tth", p!"#o1 chi",
    p!"#J0 Seconds  Det", p!"#j0 sec det"]), none⟩

/-- C31 is not vacuous. -/
theorem C31_nonvacuous :
    FreshHeader demoHdr.hdr ∧
    (@interpretHeader asciiDB demoEnv HKey.all demoHdr).2 = none ∧
    (@interpretHeader asciiDB demoEnv HKey.all demoHdr).1.hdr.positionerXref =
      some [(p!"th", p!"Theta"), (p!"tth", p!"Two Theta"), (p!"chi", p!"Chi")] ∧
    (@interpretHeader asciiDB demoEnv HKey.all demoHdr).1.hdr.counterXref =
      some [(p!"sec", p!"Seconds"), (p!"det", p!"Det")] := by
  refine ⟨⟨_, _, _, rfl⟩, ?_⟩
  decide +kernel

/-- a scan with positioners and UNICAT metadata -/
def demoTab : ScanCtx :=
  ⟨Obj.newScan p!"f.dat" 0 (join ['\n'] [p!"#S 1 ascan  th 0 1 2 1", p!"#D Mon Jul 08 13:35:50 2019",
    p!"#P0 1.5 2", p!"#P1 3 99", p!"#P2 7", p!"#V0 10  open", p!"#N 1", p!"#L th", p!"0 "]),
   { Obj.newHeader p!"f.dat" [] with
      date := p!"x", O := some [[p!"Theta", p!"Two Theta"], [p!"Chi"]], H := some [[p!"a", p!"b"]] }⟩

/-- C26 and C27 are not vacuous. -/
theorem C26_nonvacuous :
    Fresh demoTab.scan ∧
    (@interpretScan asciiDB demoEnv HKey.all demoTab).2 = none ∧
    (@interpretScan asciiDB demoEnv HKey.all demoTab).1.scan.positioner =
      [(p!"Theta", .fin (3/2)), (p!"Two Theta", .fin 2), (p!"Chi", .fin 3)] ∧
    (@interpretScan asciiDB demoEnv HKey.all demoTab).1.scan.interpComments =
      [p!"extra value in #P1 position 2, no matching label in #O1", p!"#P2 found without #O2"] ∧
    (@interpretScan asciiDB demoEnv HKey.all demoTab).1.scan.metadata =
      some [(p!"a", .num (.fin 10)), (p!"b", .str p!"open")] := by
  refine ⟨⟨_, _, _, _, _, _, _, _, _, rfl⟩, ?_⟩
  decide +kernel

end S2N.Props
