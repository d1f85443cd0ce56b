import Verif.Lemmas.FrameCore
import Verif.Lemmas.ReadStar
/-! # C74: files with save frames are read back -/
set_option linter.unusedSectionVars false
namespace Verif.RoundTrip
open Print Reader Lex Block
variable [CaseFold]

theorem prefix_before {p a r : Str} {x : Char} (hx : x ∉ p) (h : p <+: a ++ x :: r) : p <+: a := by
  induction a generalizing p with
  | nil =>
    cases p with
    | nil => exact List.nil_prefix
    | cons y p =>
      obtain ⟨u, hu⟩ := h
      simp only [List.cons_append, List.nil_append, List.cons.injEq] at hu
      exact absurd (by simp [hu.1]) hx
  | cons z a ih =>
    cases p with
    | nil => exact List.nil_prefix
    | cons y p =>
      rw [List.cons_append, List.cons_prefix_cons] at h
      rw [List.cons_prefix_cons]
      exact ⟨h.1, ih (fun hm => hx (by simp [hm])) h.2⟩

/-- The collection read is turned into the one `ReadStar` returns. -/
theorem restored_of {R : Block → Block → Prop} {c c' : Coll} (hc : Coll.Consistent c) {s : Scoping} (h1 : c'.inputOrder = fileOrder c)
    (h2 : c'.lowerKeys = fileOrder c) (h3 : dkeys c'.childTable = fileOrder c)
    (h4 : ∀ k ∈ c.lowerKeys, Coll.printedName c' k = Coll.printedName c k ∧
        (∀ t, Coll.parentOf c' k = some t ↔ Coll.parentOf c t = none ∧ Coll.Under c t k) ∧
        ∃ b rb, c.getItem k = .ok b ∧ c'.getItem k = .ok rb ∧ R b rb) : Restored R c s ((c'.setScoping .dictionary).setScoping s) := by
  refine ⟨?_, h1, ?_, fun k hk => (h4 k hk).1, fun k hk => (h4 k hk).2.1, fun k hk => (h4 k hk).2.2⟩
  · cases s with
    | dictionary => exact h2
    | «instance» =>
      show c'.topLevel = _
      rw [topLevel_eq (by rw [h3]; exact nodup_fileOrder hc), h3, shownKeys, ← filter_fileOrder hc]
      apply List.filter_congr
      intro k hk
      have hk := (mem_fileOrder hc k).1 hk
      congr 1
      apply propext
      have := (h4 k hk).2.1
      constructor
      · intro hn
        obtain ⟨t, h3, h4, h5⟩ := Coll.top_exists hc _ k hk (Nat.lt_succ_self _)
        rcases h5 with rfl | h5
        · exact h4
        · have := (this t).2 ⟨h4, h5⟩
          rw [hn] at this
          cases this
      · intro hn
        cases hp : Coll.parentOf c' k with
        | none => rfl
        | some t =>
          have hu := ((this t).1 hp).2
          cases hu with
          | child h => rw [hn] at h; cases h
          | deeper _ h => rw [hn] at h; cases h
  · intro k
    show k ∈ c'.lowerKeys ↔ _
    rw [h2, mem_fileOrder hc]

theorem readStar_first {bt : Block} {prepared c' : Coll} {text : Str} {req : Option Str} {l r : List GName} {g : GName}
    (ht : ReadStar.tryList req = .ok l) (hne : text ≠ []) (hz : '\x1a' ∉ text) (hh : ReadStar.honourHeader text l = .ok (g :: r))
    (hp : ReadStar.parsers bt g (ReadStar.setCharacterset prepared (decide (g = .v20 ∨ g = .star2))) text = (c', .ok ())) :
    ReadStar.readStar (ReadStar.parsers bt) prepared text req = ((c'.setScoping .dictionary).setScoping prepared.scoping, .ok (some g)) := by
  unfold ReadStar.readStar
  rw [ht]
  simp only [Bool.false_eq_true, if_false]
  rw [if_neg hne, ReadStar.cutCtrlZ_self _ hz]
  have hl : ReadStar.lengthCheck (-1) text = .ok () := rfl
  rw [hl]
  simp only
  rw [hh]
  simp only
  rw [ReadStar.tryAll, hp]

/-- **C74** A file of data blocks with save frames, nested to any depth, that is written with any header of comments and any usable hints is
read back: every block under its name with the same contents, every save frame in its data block. The grammar 1.1 is asked for or found.
Data blocks of dictionaries are written in two parts with the save frames between them. -/
theorem C74_file (c : Coll) (hc : Coll.Reachable c) (hne : c.lowerKeys ≠ []) (maxOut : Int) (std : Option Str)
    (hname : ∀ k ∈ c.lowerKeys, WritableHeading (Coll.printedName c k) ∧ lower (Coll.printedName c k) = k)
    (hb : ∀ k b, c.getItem k = .ok b → Reachable b ∧ WritableBlock (Style.v11 maxOut) b ∧ (Coll.parentOf c (lower k) = none → FitsStandard std b))
    (hints : List Hint) (hh : UsableHints hints) (header : Str) (hhead : IsHeader (header ++ ['\n']))
    (hz : ∀ text, WriteText.writeOut (Style.v11 maxOut) hints header c = .ok text → '\x1a' ∉ text) (bt : Block) (hbt : Fresh bt)
    (hlock : bt.overwrite = false) (hmax : bt.maxName = none) (s : Scoping) (req : Option Str) (hreq : Asks11 req header) :
    ∃ text c', WriteText.writeOut (Style.v11 maxOut) hints header c = .ok text ∧
      ReadStar.readStar (ReadStar.parsers bt) { standard := std, scoping := s } text req = (c', .ok (some .v11)) ∧
      Restored (ReadInOrder11 hints) c s c' := by
  have hcons := Coll.reachable_consistent hc
  obtain ⟨text, c', rest, h1, h2, h3, h4, h5, -, h6, h7⟩ := file_frames (D := dialect11) (st := Style.v11 maxOut) (hints := hints) (std := std) hbt hlock hmax
    (S := ReadInOrder11 hints) hc hne (fun k hk => (hname k hk).2)
    (fun k hk b hb' hp => by
      obtain ⟨b1, b2, b3⟩ := hb k b hb'
      exact topOf_core (core11 b1 b2 hh) b1 hh (b3 (by rw [hcons.lower_keys k hk]; exact hp)) hbt hlock (hname k hk).1.word (fun _ => trivial) (fun _ => ⟨trivial, trivial⟩))
    (fun k hk b hb' hp => by
      obtain ⟨b1, b2, b3⟩ := hb k b hb'
      exact frameOf_core (core11 b1 b2 hh) b1 hh trivial hbt hlock (hname k hk).1.word) hhead s false
  refine ⟨text, _, h1, ?_, restored_of hcons h4 h5 h6 h7⟩
  have hparse : ReadStar.parsers bt .v11 (ReadStar.setCharacterset { standard := std, scoping := s } (decide (GName.v11 = .v20 ∨ GName.v11 = .star2))) text = (c', .ok ()) := h3
  have hnil : text ≠ [] := by rw [h2]; simp
  rcases hreq with rfl | ⟨hr, hx⟩
  · exact readStar_first (l := [.v11]) (r := []) rfl hnil (hz _ h1) (by rw [ReadStar.honourHeader, if_neg (by simp)]) hparse
  · have hl : ReadStar.tryList req = .ok [.v20, .v11, .v10] := by rcases hr with rfl | rfl <;> rfl
    refine readStar_first (r := [.v10]) hl hnil (hz _ h1) ?_ hparse
    have : text.take 10 ≠ ReadStar.header2 := by
      intro e
      apply hx
      refine prefix_before (x := '\n') (by decide) (a := header) (r := rest) ?_
      rw [← h2, ← e]
      exact List.take_prefix _ _
    rw [ReadStar.honourHeader, if_pos ⟨this, by simp⟩]
    rfl

/-- **C74**, in CIF 2.0. What is missing is what is missing in `C70_roundtrip_partial`: the words of the blocks must stand apart from each other. -/
theorem C74_file20_partial (c : Coll) (hc : Coll.Reachable c) (hne : c.lowerKeys ≠ []) (maxOut : Int) (std : Option Str)
    (hname : ∀ k ∈ c.lowerKeys, WritableHeading20 (Coll.printedName c k) ∧ lower (Coll.printedName c k) = k) (hints : List Hint)
    (hb : ∀ k b, c.getItem k = .ok b → Reachable b ∧ WritableBlock20 (Style.v20 maxOut) hints b ∧ UngluedIn (Style.v20 maxOut) hints c (lower k) b ∧
      (Coll.parentOf c (lower k) = none → FitsStandard std b))
    (hh : UsableHints hints) (header : Str) (hhead : IsHeader (header ++ ['\n']))
    (hz : ∀ text, WriteText.writeOut (Style.v20 maxOut) hints header c = .ok text → '\x1a' ∉ text) (bt : Block) (hbt : Fresh bt)
    (hlock : bt.overwrite = false) (hmax : bt.maxName = none) (s : Scoping) (req : Option Str) (hreq : Asks20 req header) :
    ∃ text c', WriteText.writeOut (Style.v20 maxOut) hints header c = .ok text ∧
      ReadStar.readStar (ReadStar.parsers bt) { standard := std, scoping := s } text req = (c', .ok (some .v20)) ∧
      Restored (ReadInOrder hints) c s c' := by
  have hcons := Coll.reachable_consistent hc
  obtain ⟨text, c', rest, h1, h2, h3, h4, h5, -, h6, h7⟩ := file_frames (D := V2.dialect20) (st := Style.v20 maxOut) (hints := hints) (std := std) hbt hlock hmax
    (S := ReadInOrder hints) hc hne (fun k hk => (hname k hk).2)
    (fun k hk b hb' hp => by
      obtain ⟨b1, b2, b3, b4⟩ := hb k b hb'
      rw [hcons.lower_keys k hk] at b3 b4
      rw [UngluedIn] at b3
      refine topOf_core (core20 b1 b2 hh) b1 hh (b4 hp) hbt hlock (hname k hk).1.word ?_ ?_
      · intro hd
        rw [if_neg (fun h => hd h.1)] at b3
        exact b3
      · intro hd
        rw [if_pos ⟨hd, hp⟩] at b3
        exact b3)
    (fun k hk b hb' hp => by
      obtain ⟨b1, b2, b3, b4⟩ := hb k b hb'
      rw [hcons.lower_keys k hk] at b3
      rw [UngluedIn, if_neg (fun h => hp h.2)] at b3
      exact frameOf_core (core20 b1 b2 hh) b1 hh b3 hbt hlock (hname k hk).1.word) hhead s true
  refine ⟨text, _, h1, ?_, restored_of hcons h4 h5 h6 h7⟩
  have hparse : ReadStar.parsers bt .v20 (ReadStar.setCharacterset { standard := std, scoping := s } (decide (GName.v20 = .v20 ∨ GName.v20 = .star2))) text = (c', .ok ()) := h3
  have hnil : text ≠ [] := by rw [h2]; simp
  have htake : text.take 10 = ReadStar.header2 := by
    obtain ⟨hr, u, hu⟩ := hreq
    rw [h2, ← hu, List.append_assoc]
    have : (10 : Nat) = ReadStar.header2.length := rfl
    rw [this, List.take_left]
  obtain ⟨hr, -⟩ := hreq
  have hhon : ∀ l, ReadStar.honourHeader text l = .ok l := by
    intro l
    rw [ReadStar.honourHeader, if_neg (fun h => h.1 htake)]
  rcases hr with rfl | rfl | rfl
  · exact readStar_first (l := [.v20]) rfl hnil (hz _ h1) (hhon _) hparse
  · exact readStar_first (l := [.v20, .v11, .v10]) rfl hnil (hz _ h1) (hhon _) hparse
  · exact readStar_first (l := [.v20, .v11, .v10]) rfl hnil (hz _ h1) (hhon _) hparse

theorem isHeader_end {h : Str} (hh : IsHeader h) : IsHeader (h ++ ['\n']) := by
  obtain ⟨lines, rfl, h2⟩ := hh
  refine ⟨lines ++ [[]], by simp, ?_⟩
  intro l hl
  rcases List.mem_append.1 hl with hl | hl
  · exact h2 l hl
  · rw [List.mem_singleton.1 hl]
    simp

/-- **C74**, first lines: the file starts with the comment that is given, or with that of the collection. In CIF 2.0 it starts
with the header that makes readers choose CIF 2.0, and otherwise only with a comment that has this header itself. -/
theorem C74_start (comment headerComment : Str) (two : Bool) (hc : IsHeader (comment ++ ['\n'])) (hh : IsHeader (headerComment ++ ['\n'])) :
    IsHeader (WriteText.startText two comment headerComment ++ ['\n']) ∧
      (if comment = [] then headerComment else comment) <:+ WriteText.startText two comment headerComment ∧
      (two = true → ∀ req, req = some "2.0".toList ∨ req = none ∨ req = some "auto".toList → Asks20 req (WriteText.startText two comment headerComment)) ∧
      (two = false → WriteText.startText two comment headerComment = if comment = [] then headerComment else comment) := by
  have hx : IsHeader ((if comment = [] then headerComment else comment) ++ ['\n']) := by
    split
    · exact hh
    · exact hc
  have e0 : WriteText.startText two comment headerComment = if two = true ∧ (if comment = [] then headerComment else comment).take 10 ≠ ReadStar.header2 then
      ReadStar.header2 ++ "\n".toList ++ (if comment = [] then headerComment else comment) else (if comment = [] then headerComment else comment) := rfl
  rw [e0]
  generalize (if comment = [] then headerComment else comment) = x at hx
  have e1 : ReadStar.header2.head? = some '#' := rfl
  have e2 : '\n' ∉ ReadStar.header2 := by decide
  have e3 : ("\n".toList : Str) = ['\n'] := rfl
  unfold Asks20
  rw [e3]
  generalize ReadStar.header2 = p at e1 e2
  by_cases h : two = true ∧ x.take 10 ≠ p
  · rw [if_pos h]
    refine ⟨?_, ⟨_, rfl⟩, ?_, ?_⟩
    · obtain ⟨lines, h1, h2⟩ := hx
      refine ⟨p :: lines, ?_, ?_⟩
      · rw [List.flatMap_cons, ← h1]; simp
      · intro l hl
        rcases List.mem_cons.1 hl with rfl | hl
        · exact ⟨e2, .inr e1⟩
        · exact h2 l hl
    · intro _ req hr
      refine ⟨hr, ['\n'] ++ x, ?_⟩
      rw [List.append_assoc]
    · intro e
      rw [e] at h
      exact absurd h.1 (by simp)
  · rw [if_neg h]
    refine ⟨hx, List.suffix_refl _, ?_, fun _ => rfl⟩
    intro e req hr
    refine ⟨hr, ?_⟩
    have : x.take 10 = p := Classical.byContradiction fun hn => h ⟨e, hn⟩
    have h2 := List.take_prefix 10 x
    rw [this] at h2
    exact h2

end Verif.RoundTrip
