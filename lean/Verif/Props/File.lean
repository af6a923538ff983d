import Verif.Proofs.Loaded
/-
C10, C11, C12, C25: whole files.
-/
namespace Verif
open DataMap (Sorted)

/-! ### Specification -/

/-- `e` stands on the last line numbered `i` -/
def LastLine (es : List (Nat × Entity)) (i : Nat) (e : Entity) : Prop :=
  ∃ a b, es = a ++ (i, e) :: b ∧ ∀ x ∈ b, x.1 ≠ i

/-- every checked reference has a target of an allowed type (or an unknown one) -/
def RefsGood (m : DataMap) : Prop := ∀ i e, (i, e) ∈ m → ∀ n ks, e.HasCheckedRef n ks → GoodTarget m n ks

/-- the text is a header saying `h`, whatever follows it -/
def HeaderSays (h : Header) (hd : Str) : Prop := ∀ rest, pHeader (hd ++ rest) = .ok h (skip rest)

/-- the models that can be saved without damage: writable header (whatever the fraction of a second), ids in order and in
range, writable entities, good references -/
structure Ifc.Savable (f : Ifc) : Prop where
  header : WritableHeader { f.header with time := { f.header.time with nanos := 0 } }
  sorted : Sorted f.data
  ids : ∀ i e, (i, e) ∈ f.data → i < 2 ^ 64
  entities : ∀ i e, (i, e) ∈ f.data → e.Writable
  refs : RefsGood f.data

/-- … and in which every real, text and time comes back as it was -/
def Ifc.Exact (f : Ifc) : Prop := f.header.time.nanos = 0 ∧ ∀ i e, (i, e) ∈ f.data → e.Exact

/-! ### Helpers -/

theorem lookup_ofEntries_iff (es : List (Nat × Entity)) (i : Nat) (e : Entity) :
    (DataMap.ofEntries es).lookup i = some e ↔ LastLine es i e := by
  unfold DataMap.ofEntries
  rw [DataMap.lookup_foldl_put]
  constructor
  · intro h
    split at h
    · rename_i ie hf
      cases h
      obtain ⟨h1, a, b, h2, h3⟩ := List.find?_eq_some_iff_append.mp hf
      have e1 : ie.1 = i := by simpa using h1
      refine ⟨b.reverse, a.reverse, ?_, ?_⟩
      · have := congrArg List.reverse h2
        rw [List.reverse_reverse] at this
        rw [this, ← e1]
        simp
      · intro x hx
        have := h3 x (List.mem_reverse.mp hx)
        simpa using this
    · cases h
  · rintro ⟨a, b, rfl, hb⟩
    have : (a ++ (i, e) :: b).reverse.find? (fun ie => ie.1 == i) = some (i, e) := by
      rw [List.find?_eq_some_iff_append]
      refine ⟨by simp, b.reverse, a.reverse, by simp, ?_⟩
      intro x hx
      simpa using hb x (List.mem_reverse.mp hx)
    rw [this]

theorem lastLine_mem {es : List (Nat × Entity)} {i : Nat} {e : Entity} (hn : (es.map (·.1)).Nodup) : LastLine es i e ↔ (i, e) ∈ es := by
  constructor
  · rintro ⟨a, b, rfl, _⟩
    simp
  · intro h
    obtain ⟨a, b, rfl⟩ := List.append_of_mem h
    refine ⟨a, b, rfl, fun x hx he => ?_⟩
    rw [List.map_append, List.nodup_append] at hn
    obtain ⟨_, h2, _⟩ := hn
    rw [List.map_cons, List.nodup_cons] at h2
    exact h2.1 (List.mem_map.mpr ⟨x, hx, he⟩)

theorem reread_data_exact {m : DataMap} (hw : ∀ i e, (i, e) ∈ m → LoadedEntity e) (he : ∀ i e, (i, e) ∈ m → e.Exact) :
    (m.map fun ie => (ie.1, ie.2.reread)) = m := by
  have : ∀ ie ∈ m, (ie.1, ie.2.reread) = ie := by
    rintro ⟨i, e⟩ h
    have h1 := hw i e h
    have h2 := he i e h
    cases e with
    | known k v =>
      show (i, Entity.known k ((Schema.row k).reread v)) = _
      rw [reread_exact _ v h1 h2]
    | dummy w => rfl
  conv_rhs => rw [← List.map_id m]
  exact List.map_congr_left this

theorem reread_exact_file {f : Ifc} (hw : ∀ i e, (i, e) ∈ f.data → LoadedEntity e) (he : f.Exact) : f.reread = f := by
  obtain ⟨⟨d, fn, t, au, og, pp, sy, az, sc⟩, m⟩ := f
  have h1 := reread_data_exact hw he.2
  have h2 : { t with nanos := 0 } = t := by rw [← he.1]
  unfold Ifc.reread
  dsimp only at h1 ⊢
  rw [h1, h2]

/-! ### C10, C12: whole files -/

/-- Every spelling of a file loads as its header and its lines say: one entity per id, the last line numbered so. -/
theorem file_reads {h : Header} {hd s : Str} {es : List (Nat × Entity)} (hh : HeaderSays h hd) (hs : FileText hd es s) :
    ∃ m, Sorted m ∧ (∀ i e, m.lookup i = some e ↔ LastLine es i e) ∧
      (RefsGood m → fromStr s = .ok ⟨h, m⟩) ∧ (∀ f, fromStr s = .ok f → f = ⟨h, m⟩) := by
  obtain ⟨g1, ls, g2, g3, h1, hl, h2, h3, rfl⟩ := hs
  have hp := fromStr_of_read (file_parts hh (linesText_read hl) h1 h2 h3)
  refine ⟨DataMap.ofEntries es, DataMap.sorted_ofEntries es, lookup_ofEntries_iff es, ?_, ?_⟩
  · intro hr
    rw [hp]
    unfold afterRead
    rw [(verify_iff _).mpr hr]
  · intro f hf
    rw [hp] at hf
    unfold afterRead at hf
    split at hf <;> cases hf
    rfl

/-- C10: blanks, comments, line breaks and the spelling of keywords, strings and numbers make no difference to what is loaded,
nor to whether it is. -/
theorem file_layout_irrelevant {h : Header} {hd hd' s s' : Str} {es : List (Nat × Entity)} (hh : HeaderSays h hd) (hh' : HeaderSays h hd')
    (hs : FileText hd es s) (hs' : FileText hd' es s') : fromStr s = fromStr s' := by
  obtain ⟨g1, ls, g2, g3, h1, hl, h2, h3, rfl⟩ := hs
  obtain ⟨g1', ls', g2', g3', h1', hl', h2', h3', rfl⟩ := hs'
  rw [fromStr_of_read (file_parts hh (linesText_read hl) h1 h2 h3),
    fromStr_of_read (file_parts hh' (linesText_read hl') h1' h2' h3')]

/-- C12: files with the same last line for every id load the same. -/
theorem last_lines_decide {h : Header} {hd s s' : Str} {es es' : List (Nat × Entity)} (hh : HeaderSays h hd)
    (hs : FileText hd es s) (hs' : FileText hd es' s') (hl : ∀ i e, LastLine es i e ↔ LastLine es' i e) : fromStr s = fromStr s' := by
  obtain ⟨g1, ls, g2, g3, h1, hl1, h2, h3, rfl⟩ := hs
  obtain ⟨g1', ls', g2', g3', h1', hl1', h2', h3', rfl⟩ := hs'
  have e : DataMap.ofEntries es = DataMap.ofEntries es' := by
    apply DataMap.ext (DataMap.sorted_ofEntries _) (DataMap.sorted_ofEntries _)
    intro i
    apply Option.ext
    intro e
    rw [lookup_ofEntries_iff, lookup_ofEntries_iff, hl]
  rw [fromStr_of_read (file_parts hh (linesText_read hl1) h1 h2 h3),
    fromStr_of_read (file_parts hh (linesText_read hl1') h1' h2' h3'), e]

/-- C12: the order of lines with different ids makes no difference. -/
theorem line_order_irrelevant {h : Header} {hd s s' : Str} {es es' : List (Nat × Entity)} (hh : HeaderSays h hd)
    (hs : FileText hd es s) (hs' : FileText hd es' s') (hn : (es.map (·.1)).Nodup) (hp : es.Perm es') : fromStr s = fromStr s' := by
  refine last_lines_decide hh hs hs' fun i e => ?_
  rw [lastLine_mem hn, lastLine_mem ((hp.map _).nodup_iff.mp hn), hp.mem_iff]

/-- C12: what a loaded file has under an id is what its last line with that id says. -/
theorem last_line_wins {h : Header} {hd s : Str} {es : List (Nat × Entity)} (hh : HeaderSays h hd) (hs : FileText hd es s)
    {f : Ifc} (hf : fromStr s = .ok f) (i : Nat) (e : Entity) : f.data.lookup i = some e ↔ LastLine es i e := by
  obtain ⟨m, _, h2, _, h4⟩ := file_reads hh hs
  rw [h4 f hf, h2]

/-! ### C11 -/

theorem savable_reads {f : Ifc} (h : f.Savable) : ∀ ie ∈ f.data, EntReads ie.2.reread ie.2.print := by
  rintro ⟨i, e⟩ hm
  have hw := h.entities i e hm
  cases e with
  | known k v => exact entText_reads (.known (print_lay _ (row_hasKw k) v hw))
  | dummy w =>
    have := entText_reads (.unknown (w := w) (g := []) hw .nil)
    simpa [Entity.print, Entity.reread] using this

/-- C11: a savable model is loaded again from its saved text, every entity under its id, of its type, with every attribute:
exactly as it was, but for reals the writer shortens, texts containing an escape body, and the fraction of a second. -/
theorem model_roundtrip {f : Ifc} (h : f.Savable) : fromStr (showIfc f) = .ok f.reread := by
  have hr := show_read (f := f) (h := f.reread.header) (fun rest => header_loses_fraction h.header rest)
    (fun ie hie => h.ids ie.1 ie.2 hie) (savable_reads h)
  rw [fromStr_of_read hr]
  unfold afterRead
  dsimp only
  rw [DataMap.ofEntries_self (sorted_map h.sorted _), verify_reread, (verify_iff _).mpr h.refs]
  rfl

/-- C11: the same without loss. -/
theorem model_roundtrip_exact {f : Ifc} (h : f.Savable) (he : f.Exact) : fromStr (showIfc f) = .ok f := by
  rw [model_roundtrip h, reread_exact_file _ he]
  intro i e hm
  have := h.entities i e hm
  cases e with
  | known k v => exact this
  | dummy w => exact ⟨this.semi, this.head, this.tail⟩

/-! ### C25 -/

/-- the texts of unknown entities that are safe to write again: comments are closed, and no known type is read from them -/
def Again (w : Str) : Prop := CommentsEnd w ∧ ∀ rest, Rejected (w ++ ';' :: rest)

theorem loaded_reads {e : Entity} (h : LoadedEntity e) (ha : ∀ w, e = .dummy w → Again w) : EntReads e.reread e.print := by
  cases e with
  | known k v => exact entText_reads (.known (print_lay _ (row_hasKw k) v h))
  | dummy w =>
    obtain ⟨h1, h2, h3⟩ := h
    obtain ⟨h4, h5⟩ := ha w rfl
    show EntReads (.dummy w) (w ++ [';'])
    by_cases hw : w = []
    · subst hw
      refine ⟨[], [';'], rfl, .nil, fun rest => skip_solid (show Solid (';' :: rest) from ⟨by decide, by decide⟩), fun rest => ?_⟩
      obtain ⟨g', r, a, b, c⟩ := unknown_kept (h5 rest) (unknownText_closed (w := []) (g := []) (t := rest) h1 h4 h3 .nil)
      exact ⟨g', r, a, b, c⟩
    · refine ⟨[], _, rfl, .nil, fun rest => ?_, fun rest => ?_⟩
      · have := skip_closed (t := rest) h4 h2 hw .nil
        simpa using this
      · obtain ⟨g', r, a, b, c⟩ := unknown_kept (h5 rest) (unknownText_closed (g := []) (t := rest) h1 h4 h3 .nil)
        exact ⟨g', r, a, b, by simpa using c⟩

/-- what has been loaded, or saved and loaded -/
structure Kept (f : Ifc) : Prop where
  header : WritableHeader { f.header with time := { f.header.time with nanos := 0 } }
  sorted : Sorted f.data
  entities : ∀ ie ∈ f.data, ie.1 < 2 ^ 64 ∧ LoadedEntity ie.2 ∧ ∀ w, ie.2 = .dummy w → Again w
  verified : verifyAll f.data = .good

theorem kept_saved {f : Ifc} (h : Kept f) : fromStr (showIfc f) = .ok f.reread := by
  have hr := show_read (f := f) (h := f.reread.header) (fun rest => header_loses_fraction h.header rest)
    (fun ie hie => (h.entities ie hie).1) (fun ie hie => loaded_reads (h.entities ie hie).2.1 (h.entities ie hie).2.2)
  rw [fromStr_of_read hr]
  unfold afterRead
  dsimp only
  rw [DataMap.ofEntries_self (sorted_map h.sorted _), verify_reread, h.verified]
  rfl

theorem kept_reread {f : Ifc} (h : Kept f) : Kept f.reread where
  header := h.header
  sorted := sorted_map h.sorted _
  entities := by
    intro ie hie
    obtain ⟨a, ha, rfl⟩ := List.mem_map.mp hie
    obtain ⟨h1, h2, h3⟩ := h.entities a ha
    refine ⟨h1, loaded_reread h2, fun w hw => h3 w ?_⟩
    cases ha2 : a.2 with
    | known k v => rw [ha2] at hw; cases hw
    | dummy w' => rw [ha2] at hw; exact hw
  verified := (verify_reread f.data).trans h.verified

theorem kept_of_load {s : Str} {f : Ifc} (h : fromStr s = .ok f) (hy : 0 ≤ f.header.time.year ∧ f.header.time.year ≤ 9999)
    (hd : ∀ i w, (i, .dummy w) ∈ f.data → Again w) : Kept f := by
  obtain ⟨h1, h2⟩ := fromStr_ok h
  obtain ⟨h3, h4, h5⟩ := gives_pIfc _ _ _ h1
  refine ⟨h3.writable hy, h4, ?_, h2⟩
  rintro ⟨i, e⟩ hie
  exact ⟨(h5 _ hie).1, (h5 _ hie).2, fun w hw => hd i w (by dsimp only at hw; rw [← hw]; exact hie)⟩

/-- C25: whatever text was loaded, if its unknown entities can be written again and its year is an ordinary one, then the saved
text loads, giving the same model but for reals the writer shortens, texts containing an escape body, and the fraction of a
second. -/
theorem reload {s : Str} {f : Ifc} (h : fromStr s = .ok f) (hy : 0 ≤ f.header.time.year ∧ f.header.time.year ≤ 9999)
    (hd : ∀ i w, (i, .dummy w) ∈ f.data → Again w) : fromStr (showIfc f) = .ok f.reread :=
  kept_saved (kept_of_load h hy hd)

/-- C25: the same without loss. -/
theorem reload_exact {s : Str} {f : Ifc} (h : fromStr s = .ok f) (hy : 0 ≤ f.header.time.year ∧ f.header.time.year ≤ 9999)
    (hd : ∀ i w, (i, .dummy w) ∈ f.data → Again w) (he : f.Exact) : fromStr (showIfc f) = .ok f := by
  have hk := kept_of_load h hy hd
  rw [kept_saved hk, reread_exact_file (fun i e hie => (hk.entities (i, e) hie).2.1) he]

/-- C25: from the second time on nothing changes any more, whatever the reals and texts are. -/
theorem reload_settles {s : Str} {f g : Ifc} (h : fromStr s = .ok f) (hy : 0 ≤ f.header.time.year ∧ f.header.time.year ≤ 9999)
    (hd : ∀ i w, (i, .dummy w) ∈ f.data → Again w) (hg : fromStr (showIfc f) = .ok g) : fromStr (showIfc g) = .ok g := by
  have hk := kept_of_load h hy hd
  rw [kept_saved hk] at hg
  cases hg
  rw [kept_saved (kept_reread hk), ifc_reread_idem]

/-- an unknown keyword and closed comments are enough -/
theorem again_of_plain {w : Str} (h : UnknownPlain w) : Again w :=
  ⟨h.closed, fun rest => unknown_keyword_rejected (by simpa using unknownKeyword_ext h .nil rest)⟩

/-- so is a known keyword with an attribute the reader does not take -/
theorem again_wall : Again (cs! "IFCMATERIAL('a',$,5)") := by
  refine ⟨?_, ?_⟩
  · intro a b h
    have : ¬ cs! "/*" <:+: cs! "IFCMATERIAL('a',$,5)" := by decide
    exact absurd ⟨a, b, by rw [h, List.append_assoc]⟩ this
  · intro rest k
    cases k <;> rfl

/-! ### Cases -/

theorem commentsEnd_of {w : Str} (h : ∀ n ∈ List.range w.length, cs! "/*" <+: w.drop n → cs! "*/" <:+: w.drop (n + 2)) : CommentsEnd w := by
  rintro a b rfl
  have := h a.length (by simp) (by simp)
  have e : (a ++ (cs! "/*" ++ b)).drop (a.length + 2) = b := by
    rw [← List.append_assoc, List.drop_left' (by simp)]
  rwa [e] at this

theorem gap_last {g : Str} (h : Gap g) : g = [] ∨ ∃ c ∈ g.getLast?, c = ' ' ∨ c = '\t' ∨ c = '\r' ∨ c = '\n' ∨ c = '/' := by
  induction h with
  | nil => exact .inl rfl
  | @ws c g hc _ ih =>
    right
    rcases ih with rfl | ⟨d, hd, h⟩
    · exact ⟨c, by simp, by rcases hc with h | h | h | h <;> simp [h]⟩
    · exact ⟨d, by simp [List.getLast?_cons, Option.mem_def.mp hd], h⟩
  | @comment body g hb _ ih =>
    right
    rcases ih with rfl | ⟨d, hd, h⟩
    · exact ⟨'/', by rw [List.append_nil, List.getLast?_append]; rfl, by simp⟩
    · exact ⟨d, by rw [List.getLast?_append, Option.mem_def.mp hd]; rfl, h⟩

theorem unknownPlain_of {w : Str} (h1 : ';' ∉ w) (h2 : ∀ n ∈ List.range w.length, cs! "/*" <+: w.drop n → cs! "*/" <:+: w.drop (n + 2))
    (h3 : ∀ c ∈ w.head?, c ∉ cs! " \t\r\n/") (h4 : ∀ c ∈ w.getLast?, c ∉ cs! " \t\r\n/")
    (h5 : ∀ k ∈ Schema.order, ∀ x ∈ keywordTexts k, ¬ x <+: skip (w ++ [';'])) : UnknownPlain w where
  semi := h1
  closed := commentsEnd_of h2
  head := by
    rintro g b rfl hg
    rcases gap_head hg with rfl | ⟨c, r, rfl, hc⟩
    · rfl
    · exfalso
      apply h3 c (by simp)
      rcases hc with h | h | h | h | h <;> simp [h]
  tail := by
    rintro a g rfl hg
    rcases gap_last hg with rfl | ⟨c, hc, h⟩
    · rfl
    · exfalso
      refine h4 c ?_ (by rcases h with h | h | h | h | h <;> simp [h])
      rw [List.getLast?_append, Option.mem_def.mp hc]
      rfl
  keyword := unknownKeyword_of_skip h5

theorem sample_unknown_plain : UnknownPlain (cs! "IFCDOORSTYLE($,/* x */(1.))") :=
  unknownPlain_of (by decide) (by decide +kernel) (by decide) (by decide) (by decide +kernel)

/-- outcome of loading, saving and loading again -/
def resave (s : Str) : Option Load :=
  match fromStr s with
  | .ok f => some (fromStr (showIfc f))
  | _ => none

/-- the same model? -/
def resaveSame (s : Str) : Bool :=
  match fromStr s with
  | .ok f => (match fromStr (showIfc f) with
    | .ok g => decide (g.header = f.header ∧ g.data = f.data)
    | _ => false)
  | _ => false

/-- a file using much: comments, blanks, an unknown type, a known one with an unreadable attribute, lines out of order and
twice, an umlaut -/
def sampleText : Str := miniFile (cs! "#7 = IFCPOLYLINE( ( #1 , #1 ) ) ; /* x */ #1=IFCFOO($, 'it');#9=IFCMATERIAL('a',$,5);
#1 = IFCCARTESIANPOINT( (0., -1.5) );#2=IFCMATERIAL('\\X2\\00FC\\X0\\',$,*);#3=IFCBAR(1,(2));")

example : resaveSame sampleText = true := by decide +kernel
example : loads sampleText (fun m => m.map (·.1) == [1, 2, 3, 7, 9] && m.idOf .Point2D == [1]) = true := by decide +kernel

theorem writable_of (k : Kind) (v : (Schema.row k).Val) (h : @decide _ ((Schema.row k).decWritable v) = true) : (Schema.row k).Writable v :=
  @of_decide_eq_true _ ((Schema.row k).decWritable v) h
theorem exact_of (k : Kind) (v : (Schema.row k).Val) (h : @decide _ ((Schema.row k).decExact v) = true) : (Schema.row k).Exact v :=
  @of_decide_eq_true _ ((Schema.row k).decExact v) h

/-- a model with references, an umlaut, a real and an unknown entity -/
def sampleIfc : Ifc where
  header := sampleHeader
  data := [(1, .known .Point2D (.fin true 0x3FF8000000000000 (by decide), .fin false 0 (by decide))),
    (2, .known .Material (.custom (cs! "Stahlträger (S235); /*"), .omitted, .inherited)),
    (7, .known .PolyLine [1, 1]),
    (18446744073709551615, .dummy (cs! "IFCDOORSTYLE($,/* x */(1.))"))]

theorem sampleIfc_savable : sampleIfc.Savable where
  header := { sampleHeader_writable with time := by decide, year := by decide, nanos := rfl }
  sorted := by
    unfold Sorted sampleIfc
    simp
  ids := by
    intro i e h
    simp only [sampleIfc, List.mem_cons, Prod.mk.injEq, List.not_mem_nil, or_false] at h
    rcases h with ⟨rfl, _⟩ | ⟨rfl, _⟩ | ⟨rfl, _⟩ | ⟨rfl, _⟩ <;> decide
  entities := by
    intro i e h
    simp only [sampleIfc, List.mem_cons, Prod.mk.injEq, List.not_mem_nil, or_false] at h
    rcases h with ⟨_, rfl⟩ | ⟨_, rfl⟩ | ⟨_, rfl⟩ | ⟨_, rfl⟩
    · exact trivial
    · refine writable_of .Material _ ?_; decide +kernel
    · refine writable_of .PolyLine _ ?_; decide +kernel
    · exact sample_unknown_plain
  refs := (verify_iff _).mp (by decide +kernel)

theorem sampleIfc_exact : sampleIfc.Exact := by
  refine ⟨rfl, ?_⟩
  intro i e h
  simp only [sampleIfc, List.mem_cons, Prod.mk.injEq, List.not_mem_nil, or_false] at h
  rcases h with ⟨_, rfl⟩ | ⟨_, rfl⟩ | ⟨_, rfl⟩ | ⟨_, rfl⟩
  · refine exact_of .Point2D _ ?_; decide +kernel
  · refine exact_of .Material _ ?_; decide +kernel
  · refine exact_of .PolyLine _ ?_; decide +kernel
  · exact trivial

example : fromStr (showIfc sampleIfc) = .ok sampleIfc := model_roundtrip_exact sampleIfc_savable sampleIfc_exact

/-- the same lines in another order, one of them given before with another content, with blanks and comments -/
theorem sample_fileText (hd : Str) : ∃ s, FileText hd
    [(7, .known .PolyLine [1, 1]), (2, .dummy (cs! "IFCDOORSTYLE($,/* x */(1.))")),
     (1, .known .Point2D (.fin true 0x3FF8000000000000 (by decide), .fin false 0 (by decide))),
     (2, .known .Material (.custom (cs! "ä"), .omitted, .inherited))] s := by
  have sp : Gap (cs! " /* ; */\n") := .ws (.inl rfl) (Gap.comment (body := cs! " ; ") (by decide) (.ws (by simp) .nil))
  have pad : Padded ['='] (cs! " /* ; */\n=") := ⟨_, [], sp, .nil, rfl⟩
  have line : ∀ i t, LineText i t (cs! " /* ; */\n" ++ (('#' :: natStr i) ++ (cs! " /* ; */\n=" ++ t))) :=
    fun i t => ⟨_, _, _, sp, rfl, pad, rfl⟩
  have lay : ∀ (k : Kind) (v : (Schema.row k).Val), (Schema.row k).Writable v → (Schema.row k).Exact v →
      EntText (.known k v) ((Schema.row k).print v) := by
    intro k v hw he
    have := print_lay _ (row_hasKw k) v hw
    rw [reread_exact _ v hw he] at this
    exact .known this
  exact ⟨_, _, _, _, _, sp, .cons (by decide) (lay .PolyLine _ (writable_of .PolyLine _ (by decide +kernel)) (exact_of .PolyLine _ (by decide +kernel))) (line _ _)
    (.cons (by decide) (.unknown sample_unknown_plain sp) (line _ _)
      (.cons (by decide) (lay .Point2D _ (writable_of .Point2D _ (by decide +kernel)) (exact_of .Point2D _ (by decide +kernel))) (line _ _)
        (.cons (by decide) (lay .Material _ (writable_of .Material _ (by decide +kernel)) (exact_of .Material _ (by decide +kernel))) (line _ _) (.nil sp)))), sp, sp, rfl⟩

example : LastLine
    [(7, .known .PolyLine [1, 1]), (2, .dummy (cs! "X()")), (2, .known .Material (.omitted, .omitted, .inherited)), (3, .dummy [])]
    2 (.known .Material (.omitted, .omitted, .inherited)) :=
  ⟨[(7, .known .PolyLine [1, 1]), (2, .dummy (cs! "X()"))], [(3, .dummy [])], rfl, by simp⟩

/-- a header in the file and what it says -/
example : HeaderSays sampleHeader (cs! " \n" ++ showHeader sampleHeader) := fun rest => by
  have := header_roundtrip sampleHeader_writable (g := cs! " \n") (.ws (.inl rfl) (.ws (by simp) .nil)) rest
  simpa using this

/-! ### Refutation of C25 without its conditions -/

/-- the full statement -/
def ReloadAlways : Prop := ∀ s f, fromStr s = .ok f → fromStr (showIfc f) = .ok f

/-- does the saved text of what `s` loads as load with this property? -/
def resaved (s : Str) (p : DataMap → Bool) : Bool :=
  match resave s with
  | some (.ok g) => p g.data
  | _ => false

def resavePanics (s : Str) : Bool :=
  match resave s with
  | some .panic => true
  | _ => false

/-- Each condition is needed: an apostrophe left open in an unknown line swallows the next line; a comment left open swallows the
next line; a known type after a blank before the semicolon turns into the known type, or stops the program when its reference
dangles; a year that an offset moves out of range stops the program; a shortened real; an escape body before an umlaut; a
fraction of a second. -/
theorem reload_limits :
    (loads (miniFile (cs! "#3=X(',$,$);#2=IFCMATERIAL('a;#1=Y();")) (fun m => m.map (·.1) == [1, 2, 3]) = true ∧
      resaved (miniFile (cs! "#3=X(',$,$);#2=IFCMATERIAL('a;#1=Y();"))
        (fun m => m == [(1, .dummy (cs! "Y()")), (2, .known .Material (.custom (cs! "a;\n#3= X("), .omitted, .omitted))]) = true) ∧
    (loads (miniFile (cs! "#3=Z*/;#2=X /*;")) (fun m => m.map (·.1) == [2, 3]) = true ∧
      resaved (miniFile (cs! "#3=Z*/;#2=X /*;")) (fun m => m == [(2, .dummy (cs! "X"))]) = true) ∧
    resaved (miniFile (cs! "#1=IFCMATERIAL('a',$,$) ;")) (fun m => m.idOf .Material == [1]) = true ∧
    resavePanics (miniFile (cs! "#1=IFCPOLYLINE((#99)) ;")) = true ∧
    resavePanics (datedFile (cs! "0000-01-01T00:00:00+01:00") []) = true ∧
    resaved (miniFile (cs! "#1=IFCDIRECTION((0.3333333333333333,0.));"))
      (fun m => m == [(1, .known .Direction2D (.fin false 0x3FD555555555554F (by decide), .fin false 0 (by decide)))]) = true ∧
    resaved (miniFile (cs! "#1=IFCMATERIAL('\\X2\\00C4\\X0ä',$,$);"))
      (fun m => m == [(1, .known .Material (.custom (cs! "ÄX2\\00E4\\X0\\"), .omitted, .omitted))]) = true ∧
    resaveSame (datedFile (cs! "2020-01-01T00:00:00.5") []) = false := by
  decide +kernel

theorem reload_not_always : ¬ ReloadAlways := by
  intro h
  have := reload_limits.2.2.2.1
  unfold resavePanics resave at this
  cases hf : fromStr (miniFile (cs! "#1=IFCPOLYLINE((#99)) ;")) with
  | ok f =>
    rw [hf] at this
    dsimp only at this
    rw [h _ f hf] at this
    cases this
  | _ => rw [hf] at this; cases this

end Verif
