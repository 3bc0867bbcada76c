import Verif.Lemmas.FitsGeo
import Verif.Lemmas.Post
import Verif.Props.Plot
/-
C92: a scan whose lines are as they should be is interpreted without an exception.
-/
namespace S2N.Props
open S2N S2N.Py S2N.Spec

/-- The step `f` after the lines can be done. -/
def PostReady (env : Env) (f : PostFn) (c : ScanCtx) : Prop :=
  match f with
  | .counterJ | .counterj => ∀ j J, c.scan.j = some j → c.scan.J = some J → ∀ (i : Nat) (m : List Str), j[i]? = some m → ∃ n, J[i]? = some n ∧ m.length ≤ n.length
  | .positionerXref => c.scan.O = none
  | .geometry => ∃ G, c.scan.G = some G ∧ (∀ t g u x y, c.hdr.comments.head? = some t → splitWs t = [g, u, x, y] → '.' ∉ g) ∧
      (∀ k row, G.get? k = some row → ∀ w ∈ splitWs row, Finite w) ∧
      ∀ row, G.get? p!"G1" = some row → (splitWs row).length ≤ 1 ∨ 32 ≤ (splitWs row).length ∨
        (11 ≤ (splitWs row).length ∧ ∃ t ts x y, c.hdr.comments = t :: ts ∧ splitWs t = [p!"twoc", p!"User", x, y])
  | .positions => ∀ (i : Nat) (vs names : List Str), (c.scan.P.getD [])[i]? = some vs → (c.hdr.O.getD [])[i]? = some names → ∀ v ∈ vs.take names.length, Numeric v
  | .scanData => ∃ L nm dl, c.scan.L = some L ∧ c.scan.N = .nums nm ∧ c.scan.dataLines = some dl ∧
      (nm.length = 1 ∨ nm.length = 2) ∧ L.length ≤ 1000 ∧ (∀ l, L = [l] → ' ' ∉ l) ∧
      ((∃ l ∈ dl, isMcaLine l = true) → p!"_mca_" ∉ L) ∧ (∀ l ∈ dl, isMcaLine l = true → 2 < l.length) ∧
      (nm.length = 2 → ∃ a b, dl = a ++ b ∧ (∀ l ∈ a, isMcaLine l = false) ∧ ∀ l ∈ b, isMcaLine l = true) ∧
      (∀ ls, CombinedBy nm dl ls → ∀ l ∈ ls, isMcaLine l = false → (splitWs l).length ≤ L.length) ∧
      ∀ l ∈ dl, isMcaLine l = true → ∃ xs, SpectrumOf l xs
  | .unicat => ∃ H, c.hdr.H = some H ∧ ∀ (i : Nat) (r : List Str), (c.scan.V.getD [])[i]? = some r → ∃ labels, H[i]? = some labels ∧ r.length ≤ labels.length
  | .uxml => ∃ root, env.xmlParse (join ['\n'] (c.scan.UXML.getD [])) = .ok root ∧ env.xmlValid root = true

theorem counterXref_total {x : Obj} (h : ∀ j J, x.j = some j → x.J = some J → ∀ (i : Nat) (m : List Str), j[i]? = some m → ∃ n, J[i]? = some n ∧ m.length ≤ n.length) :
    (counterXref x).2 = none := by
  unfold counterXref
  split
  · next j J h1 h2 => exact xrefRows_total _ _ _ (h j J h1 h2)
  · rfl

theorem post_total {env : Env} {f : PostFn} {c : ScanCtx} (h : PostReady env f c) : (runPost env f c).2 = none := by
  cases f with
  | counterJ =>
    simp only [runPost, onScan]
    rw [Res.andThen_of_none (counterXref_total h)]; rfl
  | counterj =>
    simp only [runPost, onScan]
    rw [Res.andThen_of_none (counterXref_total h)]; rfl
  | positionerXref =>
    have h' : c.scan.O = none := h
    simp only [runPost, onScan]
    rw [Res.andThen_of_none]
    · rfl
    · unfold positionerXref; rw [h']; cases c.scan.o <;> rfl
  | geometry =>
    obtain ⟨G, h1, h2, h3, h4⟩ := h
    have key : ∀ ks, ∃ d, geoPost ⟨c.hdr.comments, c.hdr.o, c.hdr.O, ks, some G⟩ = .ok d := fun ks => geoPost_total rfl h2 h3 h4
    simp only [runPost, postGeometry]
    split
    · obtain ⟨d, hd⟩ := key (c.scan.addH5 p!"diffractometer geometry" .geometry).positioner.keys
      have e : (c.scan.addH5 p!"diffractometer geometry" .geometry).G = some G := h1
      rw [e, hd]; rfl
    · obtain ⟨d, hd⟩ := key c.scan.positioner.keys
      rw [h1, hd]; rfl
  | positions =>
    have := positionRows_total (c.hdr.O.getD []) (c.scan.P.getD []) 0 ([], c.scan.interpComments) (by
      intro i vs names h1 h2
      exact h i vs names h1 (by simpa using h2))
    simp only [runPost, postPositions, this]
    rfl
  | scanData =>
    obtain ⟨L, nm, dl, h1, h2, h3, h4, h5, h6, h7, h8, h9, h10, h11⟩ := h
    exact postData_total h1 h2 h3 h4 h5 h6 h7 h8 h9 h10 h11
  | unicat =>
    obtain ⟨H, h1, h2⟩ := h
    have := metaRows_total H (c.scan.V.getD []) 0 [] (by
      intro i r hi
      obtain ⟨l, q1, q2⟩ := h2 i r hi
      exact ⟨l, by simpa using q1, q2⟩)
    simp only [runPost, postUnicat, h1, this]
    rfl
  | uxml =>
    obtain ⟨root, h1, h2⟩ := h
    simp only [runPost, onScan, postUXML, h1, Res.eval, h2, if_true]
    rfl

theorem post_keep {env : Env} {f g : PostFn} {c : ScanCtx} (hne : f ≠ g) (h : PostReady env f c) : PostReady env f (runPost env g c).1 := by
  cases f with
  | counterJ => simp only [PostReady] at h ⊢; rw [pp_j, pp_J]; exact h
  | counterj => simp only [PostReady] at h ⊢; rw [pp_j, pp_J]; exact h
  | positionerXref => simp only [PostReady] at h ⊢; rw [pp_O]; exact h
  | geometry => simp only [PostReady] at h ⊢; rw [pp_G, pp_hdr]; exact h
  | positions => simp only [PostReady] at h ⊢; rw [pp_P, pp_hdr]; exact h
  | scanData => simp only [PostReady] at h ⊢; rw [pp_L env g c (Ne.symm hne), pp_N, pp_dataLines]; exact h
  | unicat => simp only [PostReady] at h ⊢; rw [pp_V, pp_hdr]; exact h
  | uxml => simp only [PostReady] at h ⊢; rw [pp_UXML]; exact h

section
variable [UniDB] (env : Env) (reg : List HKey) (hr : reg.Perm HKey.all)

theorem mcaLine_long {l : Str} (hk : isKind .data l = true ∨ isKind .A l = true) (hm : isMcaLine l = true) : 2 < l.length := by
  obtain ⟨r, rfl⟩ : p!"@A" <+: l := by simpa [isMcaLine, startsWith] using hm
  cases r with
  | cons c cs => simp
  | nil =>
    exfalso
    have : ∀ k, isKind k (p!"@A" ++ []) = true → False := by
      intro k h
      obtain ⟨w, rest, e, -⟩ := isKind_lead h
      have e2 : lstrip (p!"@A" ++ []) = p!"@A" := by decide
      rw [e2] at e
      have : ' ' ∈ p!"@A" := by rw [e]; simp
      revert this; decide
    rcases hk with h | h
    · exact this _ h
    · exact this _ h

include hr in
/-- After the lines, each step is ready. -/
theorem lines_ready {x0 hdr0 : Obj} (hs : ScanFits env hdr0 x0) (hf : Fresh x0) :
    let c := (forEach (scanLine env reg) (scanLines x0.raw) ⟨{ x0 with lazy := false }, hdr0⟩).1
    ∀ f ∈ c.scan.post.values, PostReady env f c := by
  intro c
  obtain ⟨hok, hinv⟩ := lines_total env reg hr hs hf
  have hn := scanLines_no_nl x0.raw
  obtain ⟨iN, iL, iD⟩ := inv_lines env reg hr (scanLines x0.raw) hn ⟨{ x0 with lazy := false }, hdr0⟩
    (by obtain ⟨_, _, _, _, _, _, _, _, _, e⟩ := hf; rw [e]; rfl) (by obtain ⟨_, _, _, _, _, _, _, _, _, e⟩ := hf; rw [e]; rfl)
    (by obtain ⟨_, _, _, _, _, _, _, _, _, e⟩ := hf; rw [e]; rfl) hok
  have mem : ∀ {f0 : PostFn}, soleLabel f0 → f0 ∈ c.scan.post.values → ∃ l ∈ scanLines x0.raw, ∃ k, postOf k = some f0 ∧ isKind k l = true :=
    fun h0 h => (lines_post_mem env reg hr (scanLines x0.raw) hn ⟨{ x0 with lazy := false }, hdr0⟩
      (by obtain ⟨_, _, _, _, _, _, _, _, _, e⟩ := hf; rw [e]; rfl) hok h0).1 h
  have nonempty : ∀ {k : HKey} {l : Str}, l ∈ scanLines x0.raw → isKind k l = true → ofKind k (scanLines x0.raw) ≠ [] := by
    intro k l hl hk e
    have : l ∈ ofKind k (scanLines x0.raw) := List.mem_filter.2 ⟨hl, hk⟩
    rw [e] at this; cases this
  have count : ∀ j J, c.scan.j = some j → c.scan.J = some J → ∀ (i : Nat) (m : List Str), j[i]? = some m → ∃ n, J[i]? = some n ∧ m.length ≤ n.length := by
    have fj : x0.j = none ∧ x0.J = none := by obtain ⟨_, _, _, _, _, _, _, _, _, e⟩ := hf; rw [e]; exact ⟨rfl, rfl⟩
    have hj := lines_kind env reg hr .j (by simp) (by simp) (·.j) (fun l b => some (b.getD [] ++ [wordsOf l])) (fun t c _ => rfl)
      (fun k t c hk => ps_j env k t c hk) (scanLines x0.raw) hn ⟨{ x0 with lazy := false }, hdr0⟩ hok
    have hJ := lines_kind env reg hr .J (by simp) (by simp) (·.J) (fun l b => some (b.getD [] ++ [wordsOf l])) (fun t c _ => rfl)
      (fun k t c hk => ps_J env k t c hk) (scanLines x0.raw) hn ⟨{ x0 with lazy := false }, hdr0⟩ hok
    rw [foldl_opt_append] at hj hJ
    intro j J q1 q2 i m hi
    have q1' := hj.symm.trans q1
    have q2' := hJ.symm.trans q2
    rw [show (⟨{ x0 with lazy := false }, hdr0⟩ : ScanCtx).scan.j = none from fj.1] at q1'
    rw [show (⟨{ x0 with lazy := false }, hdr0⟩ : ScanCtx).scan.J = none from fj.2] at q2'
    split at q1'
    · cases q1'
    split at q2'
    · cases q2'
    next h1 h2 =>
    simp only [Option.getD_none, List.nil_append, Option.some.injEq] at q1' q2'
    subst q1' q2'
    rw [List.getElem?_map, Option.map_eq_some_iff] at hi
    obtain ⟨l, hl, rfl⟩ := hi
    obtain ⟨l', hl', hlen⟩ := hs.counters h2 i l hl
    exact ⟨_, by rw [List.getElem?_map, hl']; rfl, hlen⟩
  intro f hfm
  cases f with
  | counterJ => exact count
  | counterj => exact count
  | positionerXref =>
    show c.scan.O = none
    have h := lines_kind env reg hr .O (by simp) (by simp) (·.O) (fun _ b => b) (fun t c _ => ps_O env .O t c) (fun k t c _ => ps_O env k t c)
      (scanLines x0.raw) hn ⟨{ x0 with lazy := false }, hdr0⟩ hok
    have id : ∀ (ls : List Str) (b : Option (List (List Str))), ls.foldl (fun b _ => b) b = b := by
      intro ls
      induction ls with
      | nil => intro b; rfl
      | cons l ls ih => intro b; exact ih b
    rw [id] at h
    have : c.scan.O = x0.O := h
    rw [this]
    obtain ⟨_, _, _, _, _, _, _, _, _, e⟩ := hf; rw [e]; rfl
  | geometry =>
    obtain ⟨l, hl, k, hk, hkl⟩ := mem (by simp [soleLabel]) hfm
    have hkG : k = .G := by cases k <;> simp [postOf] at hk <;> rfl
    subst hkG
    have hg := hs.geometry (nonempty hl hkl)
    have h := lines_kind env reg hr .G (by simp) (by simp) (·.G)
      (fun l b => b.map (fun g => g.set (lstripC '#' ((splitWs l).headD [])) (stripFirstWord l)))
      (by
        intro t c hc
        simp only [procScan, onScan, procObj, procG, firstWord] at hc ⊢
        cases hw : splitWs t with
        | nil => rw [hw] at hc; simp at hc
        | cons w ws =>
          rw [hw] at hc
          simp only [Res.eval_ok] at hc ⊢
          cases hg : c.scan.G with
          | none => rw [hg] at hc; simp at hc
          | some g => simp [Obj.addPost])
      (fun k t c hk => ps_G env k t c hk) (scanLines x0.raw) hn ⟨{ x0 with lazy := false }, hdr0⟩ hok
    have h0 : x0.G = some [] := by obtain ⟨_, _, _, _, _, _, _, _, _, e⟩ := hf; rw [e]; rfl
    have h : c.scan.G = (ofKind .G (scanLines x0.raw)).foldl (fun b l => b.map (fun g : Dict Str =>
      g.set (lstripC '#' ((splitWs l).headD [])) (stripFirstWord l))) x0.G := h
    rw [h0] at h
    have key : ∀ (ls : List Str) (d : Dict Str), ∃ d', ls.foldl (fun b l => b.map (fun g : Dict Str =>
          g.set (lstripC '#' ((splitWs l).headD [])) (stripFirstWord l))) (some d) = some d' ∧
        ∀ k row, d'.get? k = some row → d.get? k = some row ∨ ∃ l ∈ ls, gName l = k ∧ stripFirstWord l = row := by
      intro ls
      induction ls with
      | nil => intro d; exact ⟨d, rfl, fun k row h => .inl h⟩
      | cons l ls ih =>
        intro d
        obtain ⟨d', h1, h2⟩ := ih (d.set (lstripC '#' ((splitWs l).headD [])) (stripFirstWord l))
        refine ⟨d', h1, ?_⟩
        intro k row hk
        rcases h2 k row hk with h3 | ⟨l', h3, h4⟩
        · by_cases he : lstripC '#' ((splitWs l).headD []) = k
          · rw [he, Dict.get?_set_self] at h3
            exact .inr ⟨l, by simp, he, Option.some.inj h3⟩
          · rw [Dict.get?_set_ne _ _ he] at h3
            exact .inl h3
        · exact .inr ⟨l', by simp [h3], h4⟩
    obtain ⟨G, h1, h2⟩ := key (ofKind .G (scanLines x0.raw)) []
    have hcm : c.hdr.comments = hdr0.comments := hinv.comments
    refine ⟨G, h.trans h1, ?_, ?_, ?_⟩
    · rw [hcm]; exact hg.stated
    · intro k row hk
      rcases h2 k row hk with h3 | ⟨l', h3, h4, h5⟩
      · cases h3
      · rw [← h5]; exact hg.numbers l' h3
    · intro row hk
      rcases h2 _ row hk with h3 | ⟨l', h3, h4, h5⟩
      · cases h3
      · rw [← h5, hcm]; exact hg.cell l' h3 h4
  | positions =>
    have h := lines_kind env reg hr .P (by simp) (by simp) (·.P)
      (fun l b => b.map (· ++ [wordsOf l])) (by
        intro t c hc
        simp only [procScan, onScan, procObj, procP] at hc ⊢
        split at hc
        · simp [Res.raise] at hc
        · next h => simp [Res.ok, Obj.addPost, h, wordsOf])
      (fun k t c hk => ps_P env k t c hk) (scanLines x0.raw) hn ⟨{ x0 with lazy := false }, hdr0⟩ hok
    have h0 : x0.P = some [] := by obtain ⟨_, _, _, _, _, _, _, _, _, e⟩ := hf; rw [e]; rfl
    have h : c.scan.P = (ofKind .P (scanLines x0.raw)).foldl (fun b l => Option.map (· ++ [wordsOf l]) b) x0.P := h
    rw [h0] at h
    have key : ∀ (ls : List Str) (b : List (List Str)),
        ls.foldl (fun b l => Option.map (· ++ [wordsOf l]) b) (some b) = some (b ++ ls.map wordsOf) := by
      intro ls
      induction ls with
      | nil => intro b; simp
      | cons l ls ih => intro b; rw [List.foldl_cons, Option.map_some, ih]; simp
    rw [key] at h
    have hO : c.hdr.O = hdr0.O := hinv.O
    intro i vs names h1 h2
    have hP : c.scan.P = some ([] ++ (ofKind .P (scanLines x0.raw)).map wordsOf) := h
    rw [hP, Option.getD_some, List.nil_append, List.getElem?_map, Option.map_eq_some_iff] at h1
    obtain ⟨l, hl, rfl⟩ := h1
    rw [hO] at h2
    cases ho : hdr0.O with
    | none => rw [ho] at h2; simp at h2
    | some O => rw [ho] at h2; exact hs.positions i l O names hl ho h2
  | scanData =>
    obtain ⟨l0, hl0, k, hk, hkl⟩ := mem (by simp [soleLabel]) hfm
    have hkind : isKind .data l0 = true ∨ isKind .A l0 = true := by
      cases k <;> simp [postOf] at hk
      · exact .inl hkl
      · exact .inr hkl
    have hd := hs.data (by
      intro e
      have : l0 ∈ dataLinesOf (scanLines x0.raw) := List.mem_filter.2 ⟨hl0, by rcases hkind with h | h <;> simp [h]⟩
      rw [e] at this; cases this)
    obtain ⟨nm, hnm, hlen⟩ := hd.columns
    obtain ⟨L, hL, hst⟩ := iL
    have hN : c.scan.N = .nums nm := by
      rcases iN with ⟨-, h⟩ | ⟨nm', h1, h2⟩
      · obtain ⟨x, ⟨pre, post, e, hx, -⟩, -⟩ := hnm
        have := h x (by rw [e]; simp)
        rw [hx] at this; cases this
      · rw [show c.scan.N = .nums nm' from h2, columnNumbers_unique h1 hnm]
    obtain ⟨l1, l2, l3⟩ := hd.labels L hst
    refine ⟨L, nm, _, hL, hN, iD, hlen, l1, l2, l3, ?_, hd.order nm hnm, fun ls h => hd.rows nm ls L hnm h hst, hd.spectra⟩
    intro l hl hm
    obtain ⟨-, h2⟩ := List.mem_filter.1 hl
    rw [Bool.or_eq_true] at h2
    exact mcaLine_long h2 hm
  | unicat =>
    obtain ⟨l, hl, k, hk, hkl⟩ := mem (by simp [soleLabel]) hfm
    have hkV : k = .V := by cases k <;> simp [postOf] at hk <;> rfl
    subst hkV
    have hne := nonempty hl hkl
    obtain ⟨rows, h1, h2, h3⟩ := hinv.V
    have hH : c.hdr.H = hdr0.H := hinv.H
    have hV : c.scan.V = some rows := h1
    obtain ⟨l1, ls, e⟩ := List.exists_cons_of_ne_nil hne
    obtain ⟨H, labels, q1, -⟩ := hs.metadata 0 l1 (by rw [e]; rfl)
    refine ⟨H, by rw [hH, q1], ?_⟩
    intro i r hi
    rw [hV] at hi
    obtain ⟨H', labels', q2, q3, q4⟩ := h3 i r hi
    rw [q1] at q2
    cases q2
    exact ⟨labels', q3, q4⟩
  | uxml =>
    obtain ⟨l, hl, k, hk, hkl⟩ := mem (by simp [soleLabel]) hfm
    have hkU : k = .UXML := by cases k <;> simp [postOf] at hk <;> rfl
    subst hkU
    have hne := nonempty hl hkl
    have h := lines_kind env reg hr .UXML (by simp) (by simp) (·.UXML) (fun l b => some (b.getD [] ++ [stripFirstWord l])) (fun t c _ => rfl)
      (fun k t c hk => ps_UXML env k t c hk) (scanLines x0.raw) hn ⟨{ x0 with lazy := false }, hdr0⟩ hok
    rw [foldl_opt_append, if_neg hne] at h
    have h0 : x0.UXML = none := by obtain ⟨_, _, _, _, _, _, _, _, _, e⟩ := hf; rw [e]; rfl
    have h : c.scan.UXML = some (x0.UXML.getD [] ++ (ofKind .UXML (scanLines x0.raw)).map stripFirstWord) := h
    rw [h0] at h
    have h' : c.scan.UXML = some ((ofKind .UXML (scanLines x0.raw)).map stripFirstWord) := h
    obtain ⟨root, q1, q2⟩ := hs.uxml hne
    exact ⟨root, by rw [h']; exact q1, q2⟩

include hr in
/-- **C92**: a scan whose lines are as their kinds demand is interpreted, without an exception. -/
theorem C92_interprets {c : ScanCtx} (hs : ScanFits env c.hdr c.scan) (hf : Fresh c.scan) : (interpretScan env reg c).2 = none := by
  have hi : c.scan.interpreted = false := fresh_interpreted hf
  obtain ⟨hok, -⟩ := lines_total env reg hr hs hf
  have hrest := forEach_each (runPost env) (PostReady env) (fun f c h => post_total h) (fun f g c hne h => post_keep hne h) _ _
    (lines_post_nodup env reg (scanLines c.scan.raw) ⟨{ c.scan with lazy := false }, c.hdr⟩ (show c.scan.post = [] from fresh_post hf) hok) (lines_ready env reg hr hs hf)
  unfold interpretScan
  rw [if_neg (by rw [hi]; simp)]
  exact (congrArg Prod.snd ((Res.andThen_of_none hok _).trans (Res.andThen_of_none hrest _))).trans rfl

end
end S2N.Props
