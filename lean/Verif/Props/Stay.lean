import Verif.Props.Grown
import Verif.Props.HistoryDemo
/-
C111: `refresh()` leaves the scans that were read before as they are.
-/
namespace S2N.Props
open S2N S2N.Py S2N.Spec S2N.Moved
open Writer Eznx H5

/-- the scan `x` is there under the name `n`, and is not the one that `last_scan` names -/
structure Mid (n : Str) (x : Obj) (s : Sdf) : Prop where
  here : s.scans.get? n = some x
  ref : ∀ r, s.lastScan = some r → r.text ≠ n

/-- and it is not the last one of the file -/
structure Rests (n : Str) (x : Obj) (s : Sdf) : Prop extends Mid n x s where
  last : ∀ m y, s.scans.getLast? = some (m, y) → m ≠ n

/-- headers with a date stay -/
structure Heads (s s' : Sdf) : Prop where
  name : s'.fileName = s.fileName
  headers : ∀ (i : Nat) (h : Obj), s.headers[i]? = some h → strip h.date ≠ [] → s'.headers[i]? = some h

theorem Heads.refl (s : Sdf) : Heads s s := ⟨rfl, fun _ _ h _ => h⟩

theorem Heads.trans {s t u : Sdf} (h : Heads s t) (k : Heads t u) : Heads s u :=
  ⟨k.name.trans h.name, fun i x hx hd => k.headers i x (h.headers i x hx hd) hd⟩

theorem Kept.heads {s t : Sdf} (h : Kept s t) : Heads s t := ⟨h.name, h.headers⟩

/-- the last entry of a dictionary is changed -/
theorem get_putLast {α : Type} {d : Dict α} {m n : Str} {y : α} (h : d.getLast? = some (m, y)) (hn : m ≠ n) (z : α) :
    Dict.get? (d.dropLast ++ [(m, z)]) n = Dict.get? d n := by
  have hl : ∀ (e : Dict α) (w : α), Dict.get? (e ++ [(m, w)]) n = Dict.get? e n := by
    intro e w
    induction e with
    | nil => rw [List.nil_append, Dict.get?_cons, if_neg hn]
    | cons p e ih =>
      obtain ⟨k, v⟩ := p
      rw [List.cons_append, Dict.get?_cons, Dict.get?_cons, ih]
  have e := List.dropLast_append_getLast? _ h
  conv_rhs => rw [← e]
  rw [hl, hl]

section
variable [UniDB]

theorem date_rests {env : Env} {n : Str} {x : Obj} {s : Sdf} (h : Rests n x s) :
    Rests n x (s.dateLatest env).1 ∧ Heads s (s.dateLatest env).1 := by
  unfold Sdf.dateLatest
  cases hl : s.latest with
  | none => exact ⟨h, Heads.refl s⟩
  | some p =>
    obtain ⟨m, y⟩ := p
    simp only
    cases hfd : Sdf.findDate (splitlines y.raw).tail with
    | error e => exact ⟨h, Heads.refl s⟩
    | ok d =>
      simp only [Res.eval_ok]
      cases d with
      | none => exact ⟨h, Heads.refl s⟩
      | some line =>
        have hm := h.last m y hl
        refine ⟨⟨⟨?_, h.ref⟩, ?_⟩, ⟨rfl, ?_⟩⟩
        · show Dict.get? (s.scans.dropLast ++ [(m, _)]) n = _
          rw [get_putLast hl hm]
          exact h.here
        · intro m' y' he
          have he : (s.scans.dropLast ++ [(m, (procScan env .D line ⟨y, s.headerOf y⟩).1.scan)]).getLast? = some (m', y') := he
          simp only [List.getLast?_append, List.getLast?_singleton, Option.some_or, Option.some.injEq, Prod.mk.injEq] at he
          rw [← he.1]
          exact hm
        · intro i hd hi hdate
          show (s.headers.set _ _)[i]? = _
          simp only [ps_hdrIdx]
          by_cases hii : y.hdrIdx = i
          · subst hii
            have hho : s.headerOf y = hd := by
              unfold Sdf.headerOf
              rw [List.getD_eq_getElem?_getD]
              simp only [hi, Option.getD_some]
            rw [ps_hdr_keep env .D line _ (by simp) (by rw [hho]; exact hdate), hho]
            rw [List.getElem?_set_self (List.getElem?_eq_some_iff.1 hi).1]
          · rw [List.getElem?_set_ne hii]
            exact hi

omit [UniDB] in
theorem drop_mid {part : Str} {n : Str} {x : Obj} {s : Sdf} (h : Mid n x s) :
    Mid n x (s.dropLastScan part).1 ∧ Heads s (s.dropLastScan part).1 := by
  unfold Sdf.dropLastScan
  cases hl : s.lastScan with
  | none => exact ⟨h, Heads.refl s⟩
  | some r =>
    simp only
    cases s.rawOf r with
    | error e => exact ⟨h, Heads.refl s⟩
    | ok raw =>
      simp only [Res.eval_ok]
      split
      · split
        · refine ⟨⟨?_, fun r hr => by cases hr⟩, ⟨rfl, fun _ _ h _ => h⟩⟩
          show Dict.get? (s.scans.del r.text) n = _
          rw [Dict.get?_del_ne _ (fun e => h.ref r hl e.symm)]
          exact h.here
        · exact ⟨h, Heads.refl s⟩
      · exact ⟨h, Heads.refl s⟩

omit [UniDB] in
theorem add_rests {part : Str} {idx : Nat} {n : Str} {x : Obj} {s : Sdf} (h : Mid n x s)
    (hok : (s.addScan part idx).2 = none) : Rests n x (s.addScan part idx).1 ∧ Heads s (s.addScan part idx).1 := by
  unfold Sdf.addScan at hok ⊢
  cases hfl : Sdf.firstLine part with
  | error e => rw [hfl] at hok; simp at hok
  | ok l =>
    rw [hfl] at hok
    simp only [Res.eval_ok] at hok ⊢
    cases hsw : splitWs (stripFirstWord (strip l)) with
    | nil => rw [hsw] at hok; simp at hok
    | cons num ws =>
      rw [hsw] at hok
      simp only at hok ⊢
      by_cases hhas : s.scans.has (Sdf.freeName s.scans num) = true
      · rw [if_pos hhas] at hok; simp at hok
      · rw [if_neg hhas]
        have hset : ∀ z : Obj, s.scans.set (Sdf.freeName s.scans num) z = s.scans ++ [(Sdf.freeName s.scans num, z)] :=
          fun z => Dict.set_of_not_mem _ _ _ (fun hc => hhas ((Dict.has_iff_mem _ _).2 hc))
        have hne : Sdf.freeName s.scans num ≠ n := by
          intro e
          apply hhas
          unfold Dict.has
          rw [e, h.here]
          rfl
        refine ⟨⟨⟨?_, h.ref⟩, ?_⟩, ⟨rfl, fun _ _ h _ => h⟩⟩
        · show Dict.get? (s.scans.set _ _) n = _
          rw [Dict.get?_set_ne _ _ hne]
          exact h.here
        · intro m y he
          have he : (s.scans.set _ _).getLast? = some (m, y) := he
          rw [hset] at he
          simp only [List.getLast?_append, List.getLast?_singleton, Option.some_or, Option.some.injEq, Prod.mk.injEq] at he
          rw [← he.1]
          exact hne

omit [UniDB] in
theorem procS_rests {part : Str} {n : Str} {x : Obj} {s : Sdf} (h : Rests n x s) (hok : (s.procS part).2 = none) :
    Rests n x (s.procS part).1 ∧ Heads s (s.procS part).1 := by
  unfold Sdf.procS at hok ⊢
  simp only at hok ⊢
  generalize hs0 : (if s.headers = [] then { s with headers := [Obj.newHeader s.fileName []] } else s) = s0 at hok ⊢
  have k0 : Rests n x s0 ∧ Heads s s0 := by
    rw [← hs0]
    split
    · next he =>
      refine ⟨⟨⟨h.here, h.ref⟩, h.last⟩, ⟨rfl, fun i hd hi _ => ?_⟩⟩
      rw [he] at hi
      simp at hi
    · exact ⟨h, Heads.refl s⟩
  have hadd : ∀ idx, ((s0.dropLastScan part).andThen (Sdf.addScan part idx)).2 = none →
      Rests n x ((s0.dropLastScan part).andThen (Sdf.addScan part idx)).1 ∧
        Heads s ((s0.dropLastScan part).andThen (Sdf.addScan part idx)).1 := by
    intro idx ha
    obtain ⟨g1, g2, g3⟩ := andThen_none ha
    rw [g2]
    obtain ⟨d1, d2⟩ := drop_mid (part := part) k0.1.toMid
    obtain ⟨e1, e2⟩ := add_rests d1 g3
    exact ⟨e1, k0.2.trans (d2.trans e2)⟩
  split
  · next ha =>
    rw [if_pos ha] at hok
    cases hl : s0.lastScan with
    | none =>
      rw [hl] at hok
      exact hadd _ hok
    | some r =>
      rw [hl] at hok
      simp only at hok ⊢
      cases hraw : s0.rawOf r with
      | error e => rw [hraw] at hok; simp at hok
      | ok raw =>
        rw [hraw] at hok
        simp only [Res.eval_ok] at hok ⊢
        split
        · exact k0
        · next hne =>
          rw [if_neg hne] at hok
          exact hadd _ hok
  · next ha =>
    rw [if_neg ha] at hok
    exact hadd _ hok

/-- one section -/
theorem rests_block {env : Env} {reg : List HKey} (hr : reg.Perm HKey.all) (t : Str) (ht : IsSectionText t) {n : Str} {x : Obj}
    {s : Sdf} (h : Rests n x s) (hok : (s.readBlock env reg t).2 = none)
    (hP : isHeaderText t = true → ∀ l ∈ splitlines t, hKind .P l = false) :
    Rests n x (s.readBlock env reg t).1 ∧ Heads s (s.readBlock env reg t).1 := by
  obtain ⟨first, rest, e, hst, hnb⟩ := ht
  have hfne := startsSection_ne_nil hst
  have hfl : Sdf.firstLine t = .ok first := by rw [e]; exact firstLine_section first rest hnb hfne
  have htne : t ≠ [] := by
    rintro rfl; simp [Sdf.firstLine, splitlines, splitlinesAux] at hfl
  have hnl : '\n' ∉ first := by
    intro h
    have := hnb first (by simp) '\n' h
    simp [isLineBreak] at this
  obtain ⟨y, hy, hw⟩ : ∃ x, (x = 'E' ∨ x = 'F' ∨ x = 'S') ∧ firstWordIs ['#', x] first := by
    rcases hst with h | h | h
    · exact ⟨'E', by simp, h⟩
    · exact ⟨'F', by simp, h⟩
    · exact ⟨'S', by simp, h⟩
  obtain ⟨hkE, hkS⟩ := section_kind t first rest e y hw
  unfold Sdf.readBlock at hok ⊢
  rw [if_neg (by simpa using htne), hfl] at hok ⊢
  simp only [Res.eval_ok] at hok ⊢
  cases hg : getControlKey reg first with
  | error er => rw [hg] at hok; simp at hok
  | ok o =>
    rw [hg] at hok
    simp only [Res.eval_ok] at hok ⊢
    cases o with
    | none => simp at hok
    | some k =>
      obtain ⟨hkt, _⟩ := block_key reg hr first hnl y hy hw k hg
      have hks := keyText_section k y hkt
      rcases hy with rfl | rfl | rfl
      · have hk := hks.1 rfl
        subst hk
        have hh : isHeaderText t = true := by rw [hkE]; rfl
        simp only at hok ⊢
        unfold Sdf.procE at hok ⊢
        split
        · exact ⟨h, Heads.refl s⟩
        next hany =>
        rw [if_neg hany] at hok
        rw [hfl] at hok ⊢
        simp only [Res.eval_ok] at hok ⊢
        cases he : Sdf.epochOf (strip first) with
        | error er => rw [he] at hok; simp at hok
        | ok ep =>
        rw [he] at hok
        simp only [Res.eval_ok] at hok ⊢
        have hset : ∀ (r : Obj) (i : Nat) (z : Obj), s.headers[i]? = some z →
            ((s.headers ++ [{ Obj.newHeader s.fileName t with epoch := some ep }]).set s.headers.length r)[i]? = some z := by
          intro r i z hz
          have e0 : (s.headers ++ [{ Obj.newHeader s.fileName t with epoch := some ep }]).set s.headers.length r = s.headers ++ [r] := by
            rw [List.set_append_right _ _ (Nat.le_refl _)]
            simp
          rw [e0, List.getElem?_append_left (List.getElem?_eq_some_iff.1 hz).1]
          exact hz
        cases hlat : (Sdf.latest { s with headers := s.headers ++ [{ Obj.newHeader s.fileName t with epoch := some ep }] }) with
        | none =>
          rw [hlat] at hok
          simp only at hok ⊢
          exact ⟨⟨⟨h.here, h.ref⟩, h.last⟩, ⟨rfl, fun i z hz _ => hset _ i z hz⟩⟩
        | some q =>
          obtain ⟨nm, y⟩ := q
          rw [hlat] at hok
          simp only at hok ⊢
          have hl1 := (nop_interpret env reg hr _ hok (hP hh)).1
          rw [hl1]
          simp only
          rw [putLatest_self _ _ _ hlat]
          exact ⟨⟨⟨h.here, h.ref⟩, h.last⟩, ⟨rfl, fun i z hz _ => hset _ i z hz⟩⟩
      · have hk := hks.2.1 rfl
        subst hk
        simp only
        unfold Sdf.procF
        split <;> exact ⟨⟨⟨h.here, h.ref⟩, h.last⟩, ⟨rfl, fun _ _ h _ => h⟩⟩
      · have hk := hks.2.2 rfl
        subst hk
        simp only at hok ⊢
        obtain ⟨g1, g2, g3⟩ := andThen_none hok
        rw [g2]
        obtain ⟨a1, a2⟩ := procS_rests h g1
        obtain ⟨b1, b2⟩ := date_rests (env := env) a1
        exact ⟨b1, a2.trans b2⟩

theorem rests_loop {env : Env} {reg : List HKey} (hr : reg.Perm HKey.all) {n : Str} {x : Obj} : ∀ (ts : List Str) (s : Sdf), Rests n x s →
    (∀ t ∈ ts, IsSectionText t) → (∀ t ∈ ts, isHeaderText t = true → ∀ l ∈ splitlines t, hKind .P l = false) →
    (forEach (Sdf.readBlock env reg) ts s).2 = none →
    Rests n x (forEach (Sdf.readBlock env reg) ts s).1 ∧ Heads s (forEach (Sdf.readBlock env reg) ts s).1 := by
  intro ts
  induction ts with
  | nil => intro s h _ _ _; exact ⟨h, Heads.refl s⟩
  | cons t ts ih =>
    intro s h hs hP hok
    obtain ⟨g1, g2, g3⟩ := forEach_cons_ok hok
    rw [g2]
    obtain ⟨a1, a2⟩ := rests_block hr t (hs t (by simp)) h g1 (hP t (by simp))
    obtain ⟨b1, b2⟩ := ih _ a1 (fun u hu => hs u (by simp [hu])) (fun u hu => hP u (by simp [hu])) g3
    exact ⟨b1, a2.trans b2⟩

/-- **C111**: `refresh()` leaves the scans that were read before as they are: whatever the file contains by now (without #P lines in
its headers), if `refresh()` does not raise, then each scan of the file object, except the last one in the file and the one that
`last_scan` names, is there as it was, under its name, with what was read of it, and with its header (if that has a date). -/
theorem C111_scans {env : Env} {reg : List HKey} (hr : reg.Perm HKey.all) {s : Sdf} {f stat : FileSt}
    (hok : (s.refresh env reg f stat).1.2 = none)
    (hP : ∀ texts, dissectFile f.node = .ok texts → ∀ t ∈ texts, isHeaderText t = true → ∀ l ∈ splitlines t, hKind .P l = false)
    {n : Str} {x : Obj} (hx : s.scans.get? n = some x) (hl : ∀ m y, s.scans.getLast? = some (m, y) → m ≠ n)
    (hr' : ∀ r, s.lastScan = some r → r.text ≠ n) :
    (s.refresh env reg f stat).1.1.scans.get? n = some x ∧
      (strip (s.headerOf x).date ≠ [] → (s.refresh env reg f stat).1.1.headerOf x = s.headerOf x) := by
  have key : ∀ t : Sdf, t.scans.get? n = some x ∧ Heads s t →
      t.scans.get? n = some x ∧ (strip (s.headerOf x).date ≠ [] → t.headerOf x = s.headerOf x) := by
    rintro t ⟨h1, h2⟩
    refine ⟨h1, fun hd => ?_⟩
    unfold Sdf.headerOf at hd ⊢
    rw [List.getD_eq_getElem?_getD] at hd ⊢
    rw [List.getD_eq_getElem?_getD]
    cases e : s.headers[x.hdrIdx]? with
    | none => rw [e] at hd; exact absurd (by rfl) hd
    | some y =>
      rw [e] at hd
      rw [h2.headers _ y e hd]
      rfl
  have h0 : Rests n x s := ⟨⟨hx, hr'⟩, hl⟩
  apply key
  unfold Sdf.refresh at hok ⊢
  cases hu : s.updateAvailable f with
  | error e => rw [hu] at hok; exact ⟨hx, Heads.refl s⟩
  | ok b =>
    cases b with
    | false => exact ⟨hx, Heads.refl s⟩
    | true =>
      rw [hu] at hok
      simp only at hok ⊢
      have hread : (Sdf.read env reg f stat s).2 = none := by
        cases hx : (Sdf.read env reg f stat s).2 with
        | none => rfl
        | some e => rw [hx] at hok; dsimp only at hok; rw [hx] at hok; exact hok
      rw [hread]
      dsimp only
      unfold Sdf.read at hread ⊢
      cases hd : dissectFile f.node with
      | error e => rw [hd] at hread; simp at hread
      | ok texts =>
        rw [hd] at hread
        simp only [Res.eval_ok] at hread ⊢
        obtain ⟨g1, g2, g3⟩ := andThen_none hread
        rw [g2]
        obtain ⟨a1, a2⟩ := rests_loop hr texts s h0 (sections_text f.node texts hd) (hP texts hd) g1
        generalize (forEach (Sdf.readBlock env reg) texts s).1 = s1 at g3 a1 a2
        cases hfin : Sdf.finish stat s1 with
        | mk s2 e2 =>
          rw [hfin] at g3
          simp only at g3
          subst g3
          obtain ⟨q1, q2, q3, _⟩ := finish_ok stat s1 s2 hfin
          show s2.scans.get? n = some x ∧ Heads s s2
          refine ⟨by rw [q1]; exact a1.here, ⟨q3.trans a2.name, ?_⟩⟩
          rw [q2]
          exact a2.headers

/-- C111: the same for the scan that the user gets by a positive number. -/
theorem C111_getScan {env : Env} {reg : List HKey} (hr : reg.Perm HKey.all) {s : Sdf} {f stat : FileSt}
    (hok : (s.refresh env reg f stat).1.2 = none)
    (hP : ∀ texts, dissectFile f.node = .ok texts → ∀ t ∈ texts, isHeaderText t = true → ∀ l ∈ splitlines t, hKind .P l = false)
    {k : Ref} (hk : Positive k.text) {x : Obj} (hx : s.getScan k = .ok (some x))
    (hl : ∀ m y, s.scans.getLast? = some (m, y) → m ≠ k.text) (hr' : ∀ r, s.lastScan = some r → r.text ≠ k.text) :
    (s.refresh env reg f stat).1.1.getScan k = .ok (some x) ∧
      (strip (s.headerOf x).date ≠ [] → (s.refresh env reg f stat).1.1.headerOf x = s.headerOf x) := by
  rw [getScan_pos s k hk] at hx
  have hx : s.scans.get? k.text = some x := by injection hx
  obtain ⟨h1, h2⟩ := C111_scans hr hok hP hx hl hr'
  exact ⟨by rw [getScan_pos _ k hk, h1], h2⟩

/-- one scan in two data files, read in one of them perhaps -/
theorem entry_alike {env : Env} {reg : List HKey} (hr : reg.Perm HKey.all) (hx : SchemaNames env) {v : Versions} {s s' : Sdf}
    (hs : Savable s) {k : Ref} (hk : PlainText k.text) {x x' : Obj} (h1 : s.getScan k = .ok (some x))
    (h2 : s'.getScan k = .ok (some x'))
    (hh : interpretScan env reg ⟨x, s.headerOf x⟩ = interpretScan env reg ⟨x', s'.headerOf x'⟩) (hl : OnItsOwn env reg s x)
    {a a' : Dict AVal} (ha : rootAttributes v s = .ok a) (ha' : rootAttributes v s' = .ok a') :
    (save env reg v [k] s').2 = (save env reg v [k] s).2 ∧
      SameEntry (entryName k) (save env reg v [k] s).1.h5 (save env reg v [k] s').1.h5 := by
  have he : ∀ S : SState, saveKeys env reg true [k] S = saveKey env reg true k S := by
    intro S
    rw [saveKeys]
    cases saveKey env reg true k S with
    | mk S1 e => cases e <;> rfl
  rw [save_eq ha, save_eq ha', he, he]
  obtain ⟨p1, p2, l, g1, g2, g3, g4, g5⟩ := saveKey_par (env := env) (reg := reg) (plain_entry hk) true true
    (S1 := ⟨s, [.group [] (Dict.update [] a)]⟩) (S2 := ⟨s', [.group [] (Dict.update [] a')]⟩) (fileOk_root _) (fileOk_root _)
    rfl rfl rfl rfl (.inr ⟨x, x', h1, h2, hh⟩) (by
      intro x0 y hdr e1 e2
      obtain ⟨b1, b2, b3⟩ := hsafe_of hr hx (Savable.ok hs) x0 y hdr e1 e2
      refine ⟨b1, b2, b3, ?_⟩
      have e1 : s.getScan k = .ok (some x0) := e1
      rw [h1] at e1
      cases e1
      have hid := interp_ident env reg ⟨x, s.headerOf x⟩
      have e2' : interpretScan env reg ⟨x, s.headerOf x⟩ = (⟨y, hdr⟩, none) := e2
      rw [e2'] at hid
      have hc : y.scanCmd = x.scanCmd := congrArg Ident.scanCmd hid
      intro m ws hw hm l hl'
      refine hl.labels ⟨m, hm, ?_⟩ l ?_
      · unfold macroOf; rw [← hc, hw]; rfl
      · rw [e2']; exact hl')
  refine ⟨g5.symm, ?_⟩
  rw [g1, g2]
  exact sameEntry_up g3 g4 l

/-- C111: so, whatever was done with the file object since the data file was opened (reading attributes, saving), after `refresh()`
saving such a scan gives the entry that it would have given right after the file was opened, or raises the same exception. -/
theorem C111_entry {env : Env} {reg : List HKey} (hr : reg.Perm HKey.all) (hsn : SchemaNames env) {v : Versions} {name : Str}
    {f0 stat0 : FileSt} {s : Sdf} (ho : Sdf.openFile env reg name f0 stat0 = .ok s) {texts : List Str}
    (ht : dissectFile f0.node = .ok texts)
    (hP0 : ∀ t ∈ texts, isHeaderText t = true → ∀ l ∈ splitlines t, hKind .P l = false)
    (hO : ∀ t ∈ texts, isScanText t = true → ofKind .O (scanLines t) = []) (hs : Savable s)
    {t : Sdf} (hh : History env reg s t)
    {f stat : FileSt} (hok : (t.refresh env reg f stat).1.2 = none)
    (hP : ∀ texts, dissectFile f.node = .ok texts → ∀ t ∈ texts, isHeaderText t = true → ∀ l ∈ splitlines t, hKind .P l = false)
    {k : Ref} (hk : Positive k.text) (hpl : PlainText k.text) {x : Obj} (hx : s.getScan k = .ok (some x))
    (hl : ∀ m y, t.scans.getLast? = some (m, y) → m ≠ k.text) (hr' : ∀ r, t.lastScan = some r → r.text ≠ k.text)
    (hown : OnItsOwn env reg s x) {a a' : Dict AVal} (ha : rootAttributes v s = .ok a)
    (ha' : rootAttributes v (t.refresh env reg f stat).1.1 = .ok a') :
    (save env reg v [k] (t.refresh env reg f stat).1.1).2 = (save env reg v [k] s).2 ∧
      SameEntry (entryName k) (save env reg v [k] s).1.h5 (save env reg v [k] (t.refresh env reg f stat).1.1).1.h5 := by
  obtain ⟨hu, hnm⟩ := unshared_of_open hr ho ht hP0 hO
  have hp := (past_history hr hu hnm hh).like
  have hx0 := hx
  rw [getScan_pos s k hk] at hx0
  have hx0 : s.scans.get? k.text = some x := by injection hx0
  obtain ⟨y, hy, hid, hint⟩ := hp.scan _ x hx0
  have hy' : t.getScan k = .ok (some y) := by rw [getScan_pos t k hk, hy]
  obtain ⟨h2, h3⟩ := C111_getScan hr hok hP hk hy' hl hr'
  have hidx : y.hdrIdx = x.hdrIdx := congrArg Ident.hdrIdx hid
  have ehd : t.headerOf y = s.headerOf x := by rw [hp.headerOf, headerOf_idx hidx]
  have h3 := h3 (by rw [ehd]; exact hown.dated)
  refine entry_alike hr hsn hs hpl hx h2 ?_ hown ha ha'
  rw [h3, hp.headerOf, hint]

end

/-- two scans, and a third one -/
def stayText : Str := demoHead ++ join p!"\n" [[], p!"#S 1 ascan  th 0 1 2 1", p!"#D Wed Jun 16 18:24:36 2010",
  p!"#N 2", p!"#L two theta  I0", p!"0.5 1", p!"1.5 3", [], p!"#S 2 ascan  th 0 1 2 1", p!"#D Wed Jun 16 18:25:36 2010",
  p!"#N 2", p!"#L two theta  I0", p!"0.5 1", []]
def stayMore : Str := join p!"\n" [p!"2.5 5", [], p!"#S 3 ascan  th 0 1 2 1", p!"#D Wed Jun 16 18:26:36 2010", p!"#N 2", p!"#L chi  I0",
  p!"5 10", []]

def stayTexts : List Str := match dissectFile (.file (some stayText)) with
  | .ok texts => texts
  | .error _ => []

/-- the file after it has grown -/
def stayGrown : FileSt := fileAt (stayText ++ stayMore) 2

/-- C111: the hypotheses are met by this file object, after the data of its scan 1 were read; the file then grew by a row of scan 2
and a third scan. -/
theorem C111_nonvacuous : letI : UniDB := asciiDB
    ∃ s t x y a a', Sdf.openFile saveEnv HKey.all p!"demo.dat" (fileAt stayText 1) (fileAt stayText 1) = .ok s ∧
      dissectFile (fileAt stayText 1).node = .ok stayTexts ∧
      (∀ t ∈ stayTexts, isHeaderText t = true → ∀ l ∈ splitlines t, hKind .P l = false) ∧
      (∀ t ∈ stayTexts, isScanText t = true → ofKind .O (scanLines t) = []) ∧ Savable s ∧ History saveEnv HKey.all s t ∧
      (t.refresh saveEnv HKey.all stayGrown stayGrown).1.2 = none ∧
      (∀ texts, dissectFile stayGrown.node = .ok texts → ∀ t ∈ texts, isHeaderText t = true → ∀ l ∈ splitlines t, hKind .P l = false) ∧
      Positive (Ref.int 1).text ∧ PlainText (Ref.int 1).text ∧ s.getScan (.int 1) = .ok (some x) ∧
      t.scans.get? p!"1" = some y ∧ x.interpreted = false ∧ y.interpreted = true ∧
      (t.scans.getLast?.map Prod.fst = some p!"2") ∧ t.lastScan.map Ref.text = some p!"2" ∧
      OnItsOwn saveEnv HKey.all s x ∧ rootAttributes saveVersions s = .ok a ∧
      rootAttributes saveVersions (t.refresh saveEnv HKey.all stayGrown stayGrown).1.1 = .ok a' ∧
      (t.refresh saveEnv HKey.all stayGrown stayGrown).1.1.scans.keys = [p!"1", p!"2", p!"3"] ∧
      (save saveEnv HKey.all saveVersions [.int 1] s).2 = none := by
  letI : UniDB := asciiDB
  have ht : dissectFile (.file (some stayText)) = .ok stayTexts ∧ calmB stayTexts = true ∧
    (∀ t ∈ stayTexts, isScanText t = true → ofKind .O (scanLines t) = []) := by decide +kernel
  have hsec : (match dissectFile stayGrown.node with
    | .ok texts => texts.all (fun t => !isHeaderText t || (splitlines t).all (fun l => !(hKind .P l)))
    | _ => false) = true := by decide +kernel
  have hd : (match openText stayText with
    | .error _ => false
    | .ok s =>
      let t := (s.access saveEnv HKey.all p!"1" p!"data").1
      let u := (t.refresh saveEnv HKey.all stayGrown stayGrown).1
      savableB s && decide (u.1.scans.keys = [p!"1", p!"2", p!"3"]) && decide (u.2 = none) &&
      decide (t.scans.getLast?.map Prod.fst = some p!"2") && decide (t.lastScan.map Ref.text = some p!"2") &&
      decide ((save saveEnv HKey.all saveVersions [.int 1] s).2 = none) &&
      (match s.scans.get? p!"1" with
        | some x => decide ((interpretScan saveEnv HKey.all ⟨x, s.headerOf x⟩).2 = none)
        | none => false) &&
      (match s.getScan (.int 1), t.scans.get? p!"1", rootAttributes saveVersions s, rootAttributes saveVersions u.1 with
       | .ok (some x), some y, .ok _, .ok _ => onItsOwnB saveEnv HKey.all s x && !x.interpreted && y.interpreted
       | _, _, _, _ => false)) = true := by decide +kernel
  cases hs : openText stayText with
  | error e => rw [hs] at hd; cases hd
  | ok s =>
    rw [hs] at hd
    simp only [Bool.and_eq_true, decide_eq_true_eq] at hd
    obtain ⟨⟨⟨⟨⟨⟨⟨a1, a2⟩, a3⟩, a4⟩, a5⟩, a6⟩, a8⟩, a7⟩ := hd
    generalize htt : (s.access saveEnv HKey.all p!"1" p!"data").1 = t at a2 a3 a4 a5 a7
    have hh : History saveEnv HKey.all s t := by
      rw [← htt]
      refine .read _ _ .opened (fun x hx => ?_)
      rw [hx] at a8
      simpa using a8
    cases h5 : s.getScan (.int 1) with
    | error e => rw [h5] at a7; simp at a7
    | ok o =>
      cases o with
      | none => rw [h5] at a7; simp at a7
      | some x =>
        cases h8 : t.scans.get? p!"1" with
        | none => rw [h5, h8] at a7; simp at a7
        | some y =>
          cases h6 : rootAttributes saveVersions s with
          | error e => rw [h5, h8, h6] at a7; simp at a7
          | ok a =>
            cases h7 : rootAttributes saveVersions (t.refresh saveEnv HKey.all stayGrown stayGrown).1.1 with
            | error e => rw [h5, h8, h6, h7] at a7; simp at a7
            | ok a' =>
              rw [h5, h8, h6, h7] at a7
              simp only [Bool.and_eq_true, Bool.not_eq_true'] at a7
              refine ⟨s, t, x, y, a, a', hs, ht.1, (plain_of_b ht.2.1).noP, ht.2.2, savable_of_b a1, hh, a3, ?_,
                ⟨1, by decide +kernel, by decide +kernel⟩, plainOne, h5, h8, a7.1.2, a7.2, a4, a5, onItsOwn_of_b a7.1.1, h6, h7, a2, a6⟩
              intro texts h4 t ht hh l hl
              rw [h4] at hsec
              simp only [List.all_eq_true, Bool.or_eq_true, Bool.not_eq_true'] at hsec
              rcases hsec t ht with q | q
              · rw [hh] at q; cases q
              · exact q l hl

/-- C111: the last scan is an exception: scan 2 had one row of data, and is made anew with two of them. -/
theorem C111_last_scan : (letI : UniDB := asciiDB
    match openText stayText with
    | .ok s =>
      let t := (s.refresh saveEnv HKey.all stayGrown stayGrown).1.1
      decide ((s.scans.get? p!"1").map Obj.raw = (t.scans.get? p!"1").map Obj.raw) &&
        decide ((s.scans.get? p!"2").map Obj.raw ≠ (t.scans.get? p!"2").map Obj.raw) && decide (s.scans.keys = [p!"1", p!"2"]) &&
        decide (t.scans.keys = [p!"1", p!"2", p!"3"])
    | .error _ => false) = true := by decide +kernel

end S2N.Props
