import Verif.Spec.Surrogates
import Verif.Proofs.CliRaises
import Verif.Proofs.Names
/-! lemmas for C123: lone surrogates -/

namespace Verif
open FileProg

/-! ## the pieces -/

/-- the text of items behind a bracket or a separator -/
def itemsText (st : JsonStyle) (level : Nat) (buf : PyStr) : List Json → PyStr
  | [] => []
  | j :: l => buf ++ (st.render level j ++ st.renderItems level l)

theorem itemsText_separator (st : JsonStyle) (level : Nat) (l : List Json) :
    itemsText st level (st.separator level) l = st.renderItems level l := by
  cases l <;> simp [itemsText, JsonStyle.renderItems]

mutual
theorem jsonPieces_flatten (st : JsonStyle) : ∀ (level : Nat) (j : Json), (jsonPieces st level j).flatten = st.render level j
  | level, .null => by simp [jsonPieces]
  | level, .bool b => by simp [jsonPieces]
  | level, .num i => by simp [jsonPieces]
  | level, .float f => by simp [jsonPieces]
  | level, .str s => by simp [jsonPieces]
  | level, .arr [] => by simp [jsonPieces, JsonStyle.render]
  | level, .arr (j :: l) => by
    have h := itemPieces_flatten st (level + 1) (j :: l) ('[' :: st.newline (level + 1))
    simp [jsonPieces, JsonStyle.render, h, itemsText]
  | level, .obj [] => by simp [jsonPieces, JsonStyle.render]
  | level, .obj ((k, v) :: d) => by
    have h1 := jsonPieces_flatten st (level + 1) v
    have h2 := memberPieces_flatten st (level + 1) d
    simp [jsonPieces, JsonStyle.render, h1, h2]
theorem itemPieces_flatten (st : JsonStyle) : ∀ (level : Nat) (l : List Json) (buf : PyStr),
    (itemPieces st level buf l).flatten = itemsText st level buf l
  | level, [], buf => by simp [itemPieces, itemsText]
  | level, j :: l, buf => by
    have h1 := jsonPieces_flatten st level j
    have h2 := itemPieces_flatten st level l (st.separator level)
    rw [itemsText_separator] at h2
    rw [itemPieces, List.flatten_append, h2]
    split <;> simp [h1, itemsText]
theorem memberPieces_flatten (st : JsonStyle) : ∀ (level : Nat) (d : List (PyStr × Json)),
    (memberPieces st level d).flatten = st.renderMembers level d
  | level, [] => by simp [memberPieces, JsonStyle.renderMembers]
  | level, (k, v) :: d => by
    have h1 := jsonPieces_flatten st level v
    have h2 := memberPieces_flatten st level d
    simp [memberPieces, JsonStyle.renderMembers, h1, h2]
end

/-- a piece without lone surrogates, or a string with the brackets, separators and blanks in front of it -/
def PieceOk (q : PyStr) : Prop :=
  (∀ c ∈ q, isStandIn c = false) ∨ ∃ (buf s : PyStr), q = buf ++ jsonQuote false s ∧ ∀ c ∈ buf, c ∈ ['[', ',', '\n', ' ']

theorem newline_chars (st : JsonStyle) (level : Nat) : ∀ c ∈ st.newline level, c ∈ ['[', ',', '\n', ' '] := by
  intro c hc
  unfold JsonStyle.newline at hc
  split at hc
  · cases hc
  · rcases List.mem_cons.1 hc with rfl | hc
    · simp
    · rw [(List.mem_replicate.1 hc).2]; simp

theorem separator_chars (st : JsonStyle) (level : Nat) : ∀ c ∈ st.separator level, c ∈ ['[', ',', '\n', ' '] := by
  intro c hc
  unfold JsonStyle.separator at hc
  split at hc
  · rcases List.mem_cons.1 hc with rfl | hc
    · simp
    · rw [List.mem_singleton.1 hc]; simp
  · rcases List.mem_cons.1 hc with rfl | hc
    · simp
    · exact newline_chars st level c hc

theorem not_standIn_of_buf {c : Char} (h : c ∈ ['[', ',', '\n', ' ']) : isStandIn c = false := by
  simp only [List.mem_cons, List.not_mem_nil, or_false] at h
  rcases h with rfl | rfl | rfl | rfl <;> decide

theorem intToDec_noStandIn (i : Int) : ∀ c ∈ intToDec i, isStandIn c = false := by
  have hd : ∀ n, ∀ c ∈ natToDec n, isStandIn c = false := fun n c h => by
    have := (natToDecAux_ascii n n (Nat.le_refl n)).1 _ h
    unfold isAsciiDigit at this
    simp only [Bool.and_eq_true, decide_eq_true_eq] at this
    unfold isStandIn
    exact decide_eq_false (by omega)
  cases i with
  | ofNat n => exact hd n
  | negSucc n =>
    intro c h
    rcases List.mem_cons.1 h with rfl | h
    · decide
    · exact hd _ c h

theorem pieceOk_buf {q : PyStr} (h : ∀ c ∈ q, c ∈ ['[', ',', '\n', ' ']) : PieceOk q := .inl fun c hc => not_standIn_of_buf (h c hc)

theorem pieceOk_quote (buf s : PyStr) (h : ∀ c ∈ buf, c ∈ ['[', ',', '\n', ' ']) : PieceOk (buf ++ jsonQuote false s) := .inr ⟨buf, s, rfl, h⟩

theorem pieceOk_quote' (s : PyStr) : PieceOk (jsonQuote false s) := pieceOk_quote [] s (fun c hc => by cases hc)

theorem pieceOk_scalar (st : JsonStyle) (hst : st.ensureAscii = false) (level : Nat) (buf : PyStr) (h : ∀ c ∈ buf, c ∈ ['[', ',', '\n', ' ']) (j : Json)
    (hj : j.isContainer = false) : PieceOk (buf ++ st.render level j) := by
  have key : ∀ t : PyStr, (∀ c ∈ t, isStandIn c = false) → PieceOk (buf ++ t) := fun t ht => .inl fun c hc => by
    rcases List.mem_append.1 hc with hc | hc
    · exact not_standIn_of_buf (h c hc)
    · exact ht c hc
  cases j with
  | null => exact key _ (by simp only [JsonStyle.render]; decide)
  | bool b => cases b <;> exact key _ (by simp only [JsonStyle.render]; decide)
  | num i => exact key _ (by simp only [JsonStyle.render]; exact intToDec_noStandIn i)
  | float f => exact key _ (by simp only [JsonStyle.render]; decide)
  | str s => rw [JsonStyle.render, hst]; exact pieceOk_quote buf s h
  | arr l => cases hj
  | obj d => cases hj

mutual
theorem jsonPieces_ok (st : JsonStyle) (hst : st.ensureAscii = false) : ∀ (level : Nat) (j : Json), ∀ q ∈ jsonPieces st level j, PieceOk q
  | level, .null => by simpa [jsonPieces] using pieceOk_scalar st hst level [] (by simp) .null rfl
  | level, .bool b => by simpa [jsonPieces] using pieceOk_scalar st hst level [] (by simp) (.bool b) rfl
  | level, .num i => by simpa [jsonPieces] using pieceOk_scalar st hst level [] (by simp) (.num i) rfl
  | level, .float f => by simpa [jsonPieces] using pieceOk_scalar st hst level [] (by simp) (.float f) rfl
  | level, .str s => by simpa [jsonPieces] using pieceOk_scalar st hst level [] (by simp) (.str s) rfl
  | level, .arr [] => by
    simp only [jsonPieces, List.mem_singleton, forall_eq]
    exact .inl (by decide)
  | level, .arr (j :: l) => by
    have h := itemPieces_ok st hst (level + 1) (j :: l) ('[' :: st.newline (level + 1)) (by
      intro c hc
      rcases List.mem_cons.1 hc with rfl | hc
      · simp
      · exact newline_chars _ _ c hc)
    intro q hq
    rw [jsonPieces] at hq
    simp only [List.mem_append, List.mem_cons, List.not_mem_nil, or_false] at hq
    rcases hq with hq | rfl | rfl
    · exact h q hq
    · exact pieceOk_buf (newline_chars _ _)
    · exact .inl (by decide)
  | level, .obj [] => by
    simp only [jsonPieces, List.mem_singleton, forall_eq]
    exact .inl (by decide)
  | level, .obj ((k, v) :: d) => by
    have h1 := jsonPieces_ok st hst (level + 1) v
    have h2 := memberPieces_ok st hst (level + 1) d
    intro q hq
    rw [jsonPieces] at hq
    simp only [List.mem_append, List.mem_cons, List.not_mem_nil, or_false] at hq
    rcases hq with rfl | rfl | rfl | rfl | hq | hq | rfl | rfl
    · exact .inl (by decide)
    · exact pieceOk_buf (newline_chars _ _)
    · rw [hst]; exact pieceOk_quote' k
    · exact .inl (by decide)
    · exact h1 q hq
    · exact h2 q hq
    · exact pieceOk_buf (newline_chars _ _)
    · exact .inl (by decide)
theorem itemPieces_ok (st : JsonStyle) (hst : st.ensureAscii = false) : ∀ (level : Nat) (l : List Json) (buf : PyStr),
    (∀ c ∈ buf, c ∈ ['[', ',', '\n', ' ']) → ∀ q ∈ itemPieces st level buf l, PieceOk q
  | level, [], buf => by simp [itemPieces]
  | level, j :: l, buf => by
    have h1 := jsonPieces_ok st hst level j
    have h2 := itemPieces_ok st hst level l (st.separator level) (separator_chars _ _)
    intro hb q hq
    rw [itemPieces] at hq
    rcases List.mem_append.1 hq with hq | hq
    · split at hq
      · rcases List.mem_cons.1 hq with rfl | hq
        · exact pieceOk_buf hb
        · exact h1 q hq
      · rename_i hj
        rw [List.mem_singleton.1 hq]
        exact pieceOk_scalar st hst level buf hb j (by simpa using hj)
    · exact h2 q hq
theorem memberPieces_ok (st : JsonStyle) (hst : st.ensureAscii = false) : ∀ (level : Nat) (d : List (PyStr × Json)),
    ∀ q ∈ memberPieces st level d, PieceOk q
  | level, [] => by simp [memberPieces]
  | level, (k, v) :: d => by
    have h1 := jsonPieces_ok st hst level v
    have h2 := memberPieces_ok st hst level d
    intro q hq
    rw [memberPieces] at hq
    simp only [List.mem_append, List.mem_cons] at hq
    rcases hq with rfl | rfl | rfl | hq | hq
    · exact pieceOk_buf (separator_chars _ _)
    · rw [hst]; exact pieceOk_quote' k
    · exact .inl (by decide)
    · exact h1 q hq
    · exact h2 q hq
end

/-! ## the first piece that cannot be encoded -/

theorem encodable_iff {q : PyStr} : encodable q = true ↔ ¬ HoldsLone q := by
  unfold encodable HoldsLone
  rw [Bool.not_eq_true', List.any_eq_false]
  simp only [isStandIn, decide_eq_true_eq]
  exact ⟨fun h ⟨c, hc, h'⟩ => h c hc h', fun h c hc h' => h ⟨c, hc, h'⟩⟩

theorem all_encodable {l : List PyStr} : l.all encodable = true ↔ ¬ HoldsLone l.flatten := by
  rw [List.all_eq_true]
  constructor
  · rintro h ⟨c, hc, h'⟩
    obtain ⟨q, hq, hc⟩ := List.mem_flatten.1 hc
    exact encodable_iff.1 (h q hq) ⟨c, hc, h'⟩
  · intro h q hq
    exact encodable_iff.2 fun ⟨c, hc, h'⟩ => h ⟨c, List.mem_flatten.2 ⟨q, hq, hc⟩, h'⟩

theorem takeWhile_all {α : Type} {f : α → Bool} : ∀ {l : List α}, l.all f = true → l.takeWhile f = l
  | [], _ => rfl
  | a :: l, h => by
    rw [List.all_cons, Bool.and_eq_true] at h
    rw [List.takeWhile_cons, if_pos h.1, takeWhile_all h.2]

theorem takeWhile_not_all {α : Type} {f : α → Bool} : ∀ {l : List α}, l.all f ≠ true →
    ∃ q post, l = l.takeWhile f ++ q :: post ∧ f q = false
  | [], h => absurd rfl h
  | a :: l, h => by
    cases ha : f a with
    | false => exact ⟨a, l, by simp [ha], ha⟩
    | true =>
      obtain ⟨q, post, h1, h2⟩ := takeWhile_not_all (f := f) (l := l) (by rw [List.all_cons, ha] at h; simpa using h)
      exact ⟨q, post, by rw [List.takeWhile_cons, if_pos ha, List.cons_append, ← h1], h2⟩

theorem holdsLone_escape {s : PyStr} {c : Char} (hc : c ∈ jsonQuote false s) (h : 0x10F800 ≤ c.toNat) : c ∈ s := by
  unfold jsonQuote at hc
  simp only [List.mem_cons, List.mem_append, List.mem_flatMap, List.not_mem_nil, or_false] at hc
  rcases hc with rfl | ⟨d, hd, hc⟩ | rfl
  · exact absurd h (by decide)
  · suffices c = d by rw [this]; exact hd
    have small : ∀ l : PyStr, c ∈ l → (∀ x ∈ l, x.toNat < 0x10F800) → c = d := fun l hl hx => absurd (hx c hl) (by omega)
    unfold jsonEscape at hc
    dsimp only at hc
    repeat' split at hc
    all_goals first
      | exact List.mem_singleton.1 hc
      | exact small _ hc (by decide)
      | skip
    · rename_i hn
      refine small _ hc fun x hx => ?_
      revert x
      have : ∀ n < 32, ∀ x ∈ uEscape n, x.toNat < 0x10F800 := by decide +kernel
      exact this _ hn
    · rename_i hn _ 
      simp at hn
    · rename_i hn _ 
      simp at hn
  · exact absurd h (by decide)

/-- what is written in front of the first lone surrogate -/
theorem pieces_split (maus : DeepAhb) (h : HoldsLone (mausText maus)) :
    ∃ part before s after, part = ((jsonPieces cliStyle 0 maus.dump.sorted).takeWhile encodable).flatten ∧
      mausText maus = part ++ (before ++ (jsonQuote false s ++ after)) ∧ ¬ HoldsLone part ∧ HoldsLone s ∧
      (∀ c ∈ before, c ∈ ['[', ',', '\n', ' ']) ∧ (jsonPieces cliStyle 0 maus.dump.sorted).all encodable = false := by
  have hf : (jsonPieces cliStyle 0 maus.dump.sorted).flatten = mausText maus := jsonPieces_flatten _ _ _
  have hall : (jsonPieces cliStyle 0 maus.dump.sorted).all encodable ≠ true := by
    rw [Ne, all_encodable, hf]
    exact fun h' => h' h
  obtain ⟨q, post, h1, h2⟩ := takeWhile_not_all hall
  have hq : q ∈ jsonPieces cliStyle 0 maus.dump.sorted := by rw [h1]; simp
  have hlone : HoldsLone q := Classical.not_not.1 fun hn => by rw [encodable_iff.2 hn] at h2; cases h2
  obtain ⟨c, hc, hc'⟩ := hlone
  rcases jsonPieces_ok cliStyle rfl 0 _ q hq with hok | ⟨buf, s, rfl, hbuf⟩
  · have := hok c hc
    unfold isStandIn at this
    exact absurd hc' (of_decide_eq_false this)
  · refine ⟨_, buf, s, post.flatten, rfl, ?_, ?_, ?_, hbuf, by simpa using hall⟩
    · rw [← hf]
      conv => lhs; rw [h1]
      simp
    · rw [← all_encodable, List.all_eq_true]
      exact fun q hq => List.all_eq_true.1 (List.all_takeWhile) q hq
    · rcases List.mem_append.1 hc with hc | hc
      · have := not_standIn_of_buf (hbuf c hc)
        unfold isStandIn at this
        exact absurd hc' (of_decide_eq_false this)
      · exact ⟨c, holdsLone_escape hc hc', hc'⟩

/-! ## the command -/

theorem OnlyReads.generateLone (env : CliEnv) (o : CliOptions) : OnlyReads o.IsInput (generateLone env o) :=
  ((OnlyReads.readText _ _).mono fun _ h => .inl h).seq fun _ => (OnlyReads.lift _).seq fun _ =>
    ((OnlyReads.readText _ _).mono fun _ h => .inr (.inl h)).seq fun _ => (OnlyReads.lift _).seq fun _ =>
    ((OnlyReads.readMig _ _).mono fun _ h => .inr (.inr h)).seq fun _ => (OnlyReads.lift _).seq fun _ => .pure _

theorem generateLone_ok {env : CliEnv} {o : CliOptions} {w : FileWorld} {maus : DeepAhb} :
    (generateLone env o w).1 = .ok maus ↔ GeneratesLone env w.fs o maus := by
  unfold generateLone GeneratesLone
  have l : ∀ {α β : Type} {r : PyRes α} {f : α → FileProg β} (hf : ∀ a, ∃ Q, OnlyReads Q (f a)) {b : β},
      ((FileProg.lift r >>= f) w).1 = .ok b ↔ ∃ a, r = .ok a ∧ (f a w).1 = .ok b :=
    fun hf => seq_ok (P := fun _ => True) (OnlyReads.lift _) hf
  have r6 : ∀ a : FlatAhb × DeepAhb, ∃ Q, OnlyReads Q (match a with | (_, maus) => (Pure.pure maus : FileProg DeepAhb)) :=
    fun a => ⟨fun _ => True, OnlyReads.pure _⟩
  have r5 : ∀ (flat : FlatAhb) (sgh : Sgh) (root : Xml), OnlyReads (fun _ => True) (do
      let (_, maus) ← FileProg.lift (toDeepAhb (migLookup root) env.posStr flat sgh)
      Pure.pure maus : FileProg DeepAhb) := fun _ _ _ => (OnlyReads.lift _).seq fun _ => .pure _
  have r4 : ∀ (flat : FlatAhb) (sgh : Sgh), OnlyReads (fun _ => True) (do
      let root ← readMig env o.templatePath
      let (_, maus) ← FileProg.lift (toDeepAhb (migLookup root) env.posStr flat sgh)
      Pure.pure maus : FileProg DeepAhb) := fun _ _ => ((OnlyReads.readMig _ _).mono fun _ _ => trivial).seq fun _ => r5 _ _ _
  have r3 : ∀ (flat : FlatAhb) (t : PyStr), OnlyReads (fun _ => True) (do
      let sgh ← FileProg.lift ((jsonLoadsLone t).bind Sgh.load)
      let root ← readMig env o.templatePath
      let (_, maus) ← FileProg.lift (toDeepAhb (migLookup root) env.posStr flat sgh)
      Pure.pure maus : FileProg DeepAhb) := fun _ _ => (OnlyReads.lift _).seq fun _ => r4 _ _
  have r2 : ∀ (flat : FlatAhb), OnlyReads (fun _ => True) (do
      let t ← readText env.files o.sghPath
      let sgh ← FileProg.lift ((jsonLoadsLone t).bind Sgh.load)
      let root ← readMig env o.templatePath
      let (_, maus) ← FileProg.lift (toDeepAhb (migLookup root) env.posStr flat sgh)
      Pure.pure maus : FileProg DeepAhb) := fun _ => ((OnlyReads.readText _ _).mono fun _ _ => trivial).seq fun _ => r3 _ _
  rw [seq_ok (OnlyReads.readText _ _) fun _ => ⟨_, (OnlyReads.lift _).seq fun _ => r2 _⟩]
  simp only [readText_ok]
  constructor
  · rintro ⟨t, ht, h⟩
    obtain ⟨flat, hflat, h⟩ := (l fun _ => ⟨_, r2 _⟩).1 h
    obtain ⟨t', ht', h⟩ := (seq_ok (OnlyReads.readText _ _) fun _ => ⟨_, r3 _ _⟩).1 h
    obtain ⟨sgh, hsgh, h⟩ := (l fun _ => ⟨_, r4 _ _⟩).1 h
    obtain ⟨root, hroot, h⟩ := (seq_ok (OnlyReads.readMig _ _) fun _ => ⟨_, r5 _ _ _⟩).1 h
    obtain ⟨⟨flat', m⟩, hd, h⟩ := (l r6).1 h
    rw [pure_ok] at h
    subst h
    obtain ⟨b, hb, hx⟩ := readMig_ok.1 hroot
    exact ⟨t, flat, t', sgh, b, root, flat', ht, hflat, readText_ok.1 ht', hsgh, hb, hx, hd⟩
  · rintro ⟨t, flat, t', sgh, b, root, flat', ht, hflat, ht', hsgh, hb, hx, hd⟩
    refine ⟨t, ht, (l fun _ => ⟨_, r2 _⟩).2 ⟨flat, hflat, (seq_ok (OnlyReads.readText _ _) fun _ => ⟨_, r3 _ _⟩).2
      ⟨t', readText_ok.2 ht', (l fun _ => ⟨_, r4 _ _⟩).2 ⟨sgh, hsgh, (seq_ok (OnlyReads.readMig _ _) fun _ => ⟨_, r5 _ _ _⟩).2
      ⟨root, readMig_ok.2 ⟨b, hb, hx⟩, (l r6).2 ⟨(flat', maus), hd, rfl⟩⟩⟩⟩⟩⟩

theorem generatesLone_unique {env : CliEnv} {fs : FsNode} {o : CliOptions} {a b : DeepAhb} (ha : GeneratesLone env fs o a)
    (hb : GeneratesLone env fs o b) : a = b := by
  have h1 := (generateLone_ok (w := ⟨fs, []⟩)).2 ha
  have h2 := (generateLone_ok (w := ⟨fs, []⟩)).2 hb
  rw [h1] at h2
  injection h2

theorem cliCommandLone_run (env : CliEnv) (o : CliOptions) (w : FileWorld) :
    (PathsOk env.files w.fs o → cliCommandLone env o w = cliMainLone env o w) ∧
    (¬ PathsOk env.files w.fs o → cliCommandLone env o w = (.error .other, w)) := by
  obtain ⟨h1, h2⟩ := clickChecks_eq env.files o w
  unfold cliCommandLone
  exact ⟨fun h => seq_of_ok (h1 h), fun h => seq_of_error (h2 h)⟩

/-- the events and the state after generating -/
theorem generateLone_run (env : CliEnv) (o : CliOptions) (w : FileWorld) :
    ∃ r l, generateLone env o w = (r, { fs := w.fs, log := w.log ++ l }) ∧ (∀ maus, r = .ok maus ↔ GeneratesLone env w.fs o maus) ∧
      ∀ e ∈ l, ∃ p, o.IsInput p ∧ e = .opened p := by
  obtain ⟨l, h1, h2⟩ := (OnlyReads.generateLone env o).log w
  have h3 := (OnlyReads.generateLone env o).fs w
  refine ⟨(generateLone env o w).1, l, ?_, fun maus => generateLone_ok, h2⟩
  generalize generateLone env o w = x at *
  obtain ⟨r, ⟨fs, log⟩⟩ := x
  simp only at h1 h3
  rw [h1, h3]

theorem cliMainLone_ambiguous (env : CliEnv) (o : CliOptions) (w : FileWorld) (h : o.checkPath.isSome = o.outputPath.isSome) :
    cliMainLone env o w = (.error .abort, { w with log := w.log ++ [.said false] }) := by
  have hc : ((o.checkPath.isNone && o.outputPath.isNone) || (o.checkPath.isSome && o.outputPath.isSome)) = true := by
    cases h1 : o.checkPath <;> cases h2 : o.outputPath <;> simp [h1, h2] at h ⊢
  unfold cliMainLone
  rw [if_pos hc]
  rfl

theorem cliMainLone_output (env : CliEnv) (o : CliOptions) (w : FileWorld) (p : FsPath) (hc : o.checkPath = none)
    (ho : o.outputPath = some p) : cliMainLone env o w = match generateLone env o w with
      | (.ok maus, w') => writeMausLone env.files maus p w'
      | (.error e, w') => (.error e, w') := by
  unfold cliMainLone
  rw [hc, ho]
  simp only [Option.isNone_none, Option.isNone_some, Option.isSome_none, Option.isSome_some, Bool.and_false, Bool.false_and,
    Bool.or_false, Bool.false_eq_true, if_false, forOption]
  rcases h : generateLone env o w with ⟨_ | a, w'⟩
  · rw [seq_of_error h]
  · rw [seq_of_ok h]
    dsimp only
    rcases h' : writeMausLone env.files a p w' with ⟨_ | a, w'⟩
    · rw [seq_of_error h']
    · rw [seq_of_ok h']; rfl

theorem cliMainLone_check (env : CliEnv) (o : CliOptions) (w : FileWorld) (p : FsPath) (hc : o.checkPath = some p)
    (ho : o.outputPath = none) : cliMainLone env o w = match generateLone env o w with
      | (.ok maus, w') => checkMausLone env.files maus p w'
      | (.error e, w') => (.error e, w') := by
  unfold cliMainLone
  rw [hc, ho]
  simp only [Option.isNone_none, Option.isNone_some, Option.isSome_none, Option.isSome_some, Bool.and_false, Bool.false_and,
    Bool.or_false, Bool.false_eq_true, if_false, forOption]
  rcases h : generateLone env o w with ⟨_ | a, w'⟩
  · rw [seq_of_error h]
  · rw [seq_of_ok h]
    exact seq_of_ok rfl

theorem checkMausLone_fs (env : FileEnv) (maus : DeepAhb) (p : FsPath) (w : FileWorld) :
    (checkMausLone env maus p w).2.fs = w.fs := by
  unfold checkMausLone
  have h := (OnlyReads.readText env p).fs w
  rcases hr : readText env p w with ⟨_ | t, w'⟩
  · rw [hr] at h
    rw [seq_of_error hr]
    exact h
  · rw [hr] at h
    rw [seq_of_ok hr]
    cases hl : (jsonLoadsLone t).bind DeepAhb.load with
    | error e => exact h
    | ok expected =>
      show ((if expected.resetAhbLineIndex = maus.resetAhbLineIndex then say true else do
        say false
        lift (.error .abort) : FileProg Unit) w').2.fs = w.fs
      split
      · exact h
      · exact h

/-- the run with an output path -/
theorem writeMausLone_plain (env : FileEnv) (maus : DeepAhb) (p : FsPath) (h : ¬ HoldsLone (mausText maus)) :
    writeMausLone env maus p = writeMaus env maus p := by
  have hf : (jsonPieces cliStyle 0 maus.dump.sorted).flatten = mausText maus := jsonPieces_flatten _ _ _
  have hall : (jsonPieces cliStyle 0 maus.dump.sorted).all encodable = true := by rw [all_encodable, hf]; exact h
  funext w
  unfold writeMausLone writeMaus
  rw [takeWhile_all hall, hall, hf]
  show FileProg.seq _ _ w = _
  unfold FileProg.seq mausText cliStyle
  rcases writeBytes env p _ w with ⟨_ | a, w'⟩
  · rfl
  · rfl

theorem writeMausLone_lone (env : FileEnv) (maus : DeepAhb) (p : FsPath)
    (h : (jsonPieces cliStyle 0 maus.dump.sorted).all encodable = false) (w : FileWorld) :
    writeMausLone env maus p w =
      match writeBytes env p (encodeUtf8 ((jsonPieces cliStyle 0 maus.dump.sorted).takeWhile encodable).flatten) w with
      | (.ok _, w') => (.error .valueError, w')
      | (.error e, w') => (.error e, w') := by
  unfold writeMausLone
  rw [h]
  show FileProg.seq _ _ w = _
  unfold FileProg.seq
  rcases writeBytes env p _ w with ⟨_ | a, w'⟩
  · rfl
  · rfl

/-! ## reading -/

theorem joinTokens_chars (l : PyStr) : joinTokens false (l.map .char) = l := by
  induction l with
  | nil => rfl
  | cons c l ih => rw [List.map_cons, joinTokens, ih]

theorem loneText_plain (s : PyStr) (h : NoSurrogateEscape s) : loneText s = s := by
  unfold loneText
  suffices ∀ second, joinTokens second (jsonTokens s) = s from this false
  have tail : ∀ (pre t : PyStr), NoSurrogateEscape (pre ++ t) → NoSurrogateEscape t := by
    intro pre t h before a b c d after n ht
    refine h (pre ++ before) a b c d after n (by rw [ht]; simp)
  fun_induction jsonTokens s with
  | case1 => intro second; rfl
  | case2 a b c d rest n hn ih =>
    have hn' := h [] a b c d rest n rfl hn
    have ih := ih (tail ['\\', 'u', a, b, c, d] rest h)
    intro second
    rw [joinTokens, if_neg (by omega), if_neg (by omega), ih]
    rfl
  | case3 a b c d rest hn =>
    intro second
    rw [joinTokens, joinTokens_chars]
  | case4 c rest hc ih =>
    intro second
    rw [joinTokens, ih (tail ['\\', c] rest h)]
  | case5 c rest h1 h2 ih =>
    intro second
    rw [joinTokens, ih (tail [c] rest h)]

theorem jsonLoadsLone_plain (s : PyStr) (h : NoSurrogateEscape s) : jsonLoadsLone s = jsonLoads s := by
  unfold jsonLoadsLone
  rw [loneText_plain s h]

theorem consUnit_inv {n : Nat} {r : PyRes (List Nat × PyStr)} {l : List Nat} {rest : PyStr} (h : consUnit n r = .ok (l, rest)) :
    ∃ l', l = n :: l' ∧ r = .ok (l', rest) := by
  unfold consUnit at h
  split at h
  · cases h; exact ⟨_, rfl, rfl⟩
  · cases h

theorem scanUnits_cases {s : PyStr} {l : List Nat} {r : PyStr} (h : scanUnits s = .ok (l, r)) :
    (s = '"' :: r ∧ l = []) ∨
    (∃ a b c d rest n l', s = '\\' :: 'u' :: a :: b :: c :: d :: rest ∧ parseHex [a, b, c, d] = some n ∧ l = n :: l' ∧
      scanUnits rest = .ok (l', r)) ∨
    (∃ c rest n l', s = '\\' :: c :: rest ∧ c ≠ 'u' ∧ simpleEscape c = some n ∧ l = n :: l' ∧ scanUnits rest = .ok (l', r)) ∨
    (∃ c rest l', s = c :: rest ∧ c ≠ '"' ∧ c ≠ '\\' ∧ 32 ≤ c.toNat ∧ l = c.toNat :: l' ∧ scanUnits rest = .ok (l', r)) := by
  unfold scanUnits at h
  split at h
  · cases h
  · cases h; exact .inl ⟨rfl, rfl⟩
  · split at h
    · rename_i n hn
      obtain ⟨l', h1, h2⟩ := consUnit_inv h
      exact .inr (.inl ⟨_, _, _, _, _, n, l', rfl, hn, h1, h2⟩)
    · cases h
  · split at h
    · rename_i c rest _ _ n hn
      obtain ⟨l', h1, h2⟩ := consUnit_inv h
      refine .inr (.inr (.inl ⟨c, rest, n, l', rfl, ?_, hn, h1, h2⟩))
      rintro rfl
      rw [show simpleEscape 'u' = none from by decide] at hn
      cases hn
    · cases h
  · rename_i c rest h1 h2 h3
    split at h
    · cases h
    · obtain ⟨l', h4, h5⟩ := consUnit_inv h
      refine .inr (.inr (.inr ⟨c, rest, l', rfl, fun hc => h1 hc, ?_, by omega, h4, h5⟩))
      rintro rfl
      cases rest with
      | nil => simp [scanUnits] at h5
      | cons x y => exact h3 x y rfl rfl

theorem simpleEscape_small {c : Char} {n : Nat} (h : simpleEscape c = some n) : n < 128 := by
  unfold simpleEscape at h
  repeat' split at h
  all_goals first
    | (cases h; decide)
    | cases h

theorem jsonTokens_escape {c : Char} {rest : PyStr} (hc : c ≠ 'u') : jsonTokens ('\\' :: c :: rest) = .escape c :: jsonTokens rest := by
  rw [jsonTokens]
  rintro a b c' d rest' h
  exact absurd h hc

theorem jsonTokens_char {c : Char} {rest : PyStr} (hc : c ≠ '\\') : jsonTokens (c :: rest) = .char c :: jsonTokens rest := by
  rw [jsonTokens]
  · rintro a b c' d rest' h
    exact absurd h hc
  · rintro c' rest' h
    exact absurd h hc

theorem jsonTokens_unit {a b c d : Char} {rest : PyStr} {n : Nat} (h : parseHex [a, b, c, d] = some n) :
    jsonTokens ('\\' :: 'u' :: a :: b :: c :: d :: rest) = .unit [a, b, c, d] n :: jsonTokens rest := by
  rw [jsonTokens, h]

/-- the text goes on with a low surrogate iff the units do -/
theorem startsLow_iff {s : PyStr} {l : List Nat} {r : PyStr} (h : scanUnits s = .ok (l, r)) :
    startsLow (jsonTokens s) = true ↔ ∃ m, l.head? = some m ∧ 0xDC00 ≤ m ∧ m ≤ 0xDFFF := by
  rcases scanUnits_cases h with ⟨rfl, rfl⟩ | ⟨a, b, c, d, rest, n, l', rfl, hn, rfl, _⟩ | ⟨c, rest, n, l', rfl, hc, hn, rfl, _⟩ |
    ⟨c, rest, l', rfl, h1, h2, _, rfl, _⟩
  · rw [jsonTokens_char (by decide)]
    simp [startsLow]
  · rw [jsonTokens_unit hn]
    simp [startsLow]
  · rw [jsonTokens_escape hc]
    have := simpleEscape_small hn
    simp only [startsLow, Bool.false_eq_true, List.head?_cons, Option.some.injEq, exists_eq_left', false_iff]
    omega
  · rw [jsonTokens_char h2]
    have := char_not_surrogate c
    simp only [startsLow, Bool.false_eq_true, List.head?_cons, Option.some.injEq, exists_eq_left', false_iff]
    omega

theorem standIn_toNat {n : Nat} (h : 0xD800 ≤ n ∧ n ≤ 0xDFFF) :
    (standIn n).toNat = n + 0x102000 ∧ standIn n = Char.ofNat (0x10F800 + (n - 0xD800)) := by
  unfold standIn
  refine ⟨toNat_ofNat (.inr ⟨by omega, by omega⟩), ?_⟩
  rw [show n + 0x102000 = 0x10F800 + (n - 0xD800) by omega]

theorem joinUnits_plain {n : Nat} {l : List Nat} (h : ¬ (0xD800 ≤ n ∧ n ≤ 0xDFFF)) :
    joinUnits (n :: l) = (joinUnits l).map (Char.ofNat n :: ·) := by
  rw [joinUnits.eq_def]
  dsimp only
  rw [if_neg (by omega), if_neg (by omega)]

theorem scanUnits_char {c : Char} {s : PyStr} (h1 : c ≠ '"') (h2 : c ≠ '\\') (h3 : 32 ≤ c.toNat) :
    scanUnits (c :: s) = consUnit c.toNat (scanUnits s) := by
  rw [scanUnits, if_neg (by omega)]
  · exact fun h => h1 h
  · rintro a b c' d rest' h
    exact absurd h h2
  · rintro c' rest' h
    exact absurd h h2

theorem scanUnits_lone {n : Nat} {s : PyStr} (h : 0xD800 ≤ n ∧ n ≤ 0xDFFF) :
    scanUnits (standIn n :: s) = consUnit (n + 0x102000) (scanUnits s) := by
  have ht := (standIn_toNat h).1
  rw [scanUnits_char, ht]
  · intro hc; rw [hc] at ht; have : ('"' : Char).toNat = 34 := rfl; omega
  · intro hc; rw [hc] at ht; have : ('\\' : Char).toNat = 92 := rfl; omega
  · omega

theorem scan_loneText : ∀ (k : Nat) (s : PyStr), s.length ≤ k → ∀ (l : List Nat) (r : PyStr), scanUnits s = .ok (l, r) →
    ∃ l' t, scanUnits (loneText s) = .ok (l', loneText r) ∧ joinUnits l' = some t ∧ UnitsString l t := by
  intro k
  induction k with
  | zero =>
    intro s hs l r h
    cases s with
    | nil => simp [scanUnits] at h
    | cons c s => simp at hs
  | succ k ih =>
    intro s hs l r h
    unfold loneText at ih ⊢
    rcases scanUnits_cases h with ⟨rfl, rfl⟩ | ⟨a, b, c, d, rest, n, l', rfl, hn, rfl, hr⟩ | ⟨c, rest, n, l', rfl, hc, hn, rfl, hr⟩ |
      ⟨c, rest, l', rfl, h1, h2, h3, rfl, hr⟩
    · rw [jsonTokens_char (by decide), joinTokens]
      exact ⟨[], [], by rw [scanUnits], rfl, .nil⟩
    · rw [jsonTokens_unit hn, joinTokens]
      simp only [List.length_cons] at hs
      have low := startsLow_iff hr
      split
      · rename_i hhigh
        split
        · rename_i hlow
          obtain ⟨m, hm, hm'⟩ := low.1 hlow
          rcases scanUnits_cases hr with ⟨_, rfl⟩ | ⟨a', b', c', d', rest', n', l'', rfl, hn', rfl, hr'⟩ |
            ⟨c', rest', n', l'', rfl, hc', hn', rfl, hr'⟩ | ⟨c', rest', l'', rfl, _, _, _, rfl, hr'⟩
          · cases hm
          · cases hm
            simp only [List.length_cons] at hs
            obtain ⟨u, t, e1, e2, e3⟩ := ih rest' (by omega) _ _ hr'
            rw [jsonTokens_unit hn', joinTokens, if_neg (by omega), if_pos hm', if_pos rfl]
            refine ⟨n :: m :: u, _, ?_, ?_, .pair n m _ t hhigh hm' e3⟩
            · show scanUnits ('\\' :: 'u' :: a :: b :: c :: d :: '\\' :: 'u' :: a' :: b' :: c' :: d' :: _) = _
              rw [scanUnits, hn]
              dsimp only
              rw [scanUnits, hn']
              show consUnit n (consUnit m (scanUnits (joinTokens false (jsonTokens rest')))) = _
              rw [e1]
              rfl
            · rw [joinUnits.eq_def]
              dsimp only
              rw [if_pos hhigh, if_pos hm', e2]
              rfl
          · cases hm
            have := simpleEscape_small hn'
            omega
          · cases hm
            exact absurd ⟨by omega, hm'.2⟩ (char_not_surrogate c')
        · rename_i hlow
          obtain ⟨u, t, e1, e2, e3⟩ := ih rest (by omega) _ _ hr
          have hs' : 0xD800 ≤ n ∧ n ≤ 0xDFFF := by omega
          refine ⟨(n + 0x102000) :: u, _, ?_, ?_, .loneHigh n _ t hhigh (fun m hm hm' => hlow (low.2 ⟨m, hm, hm'⟩)) e3⟩
          · rw [scanUnits_lone hs', e1]; rfl
          · rw [joinUnits_plain (by omega), e2]
            show some (standIn n :: t) = _
            rw [(standIn_toNat hs').2]
      · rename_i hhigh
        obtain ⟨u, t, e1, e2, e3⟩ := ih rest (by omega) _ _ hr
        split
        · rename_i hl
          have hs' : 0xD800 ≤ n ∧ n ≤ 0xDFFF := by omega
          rw [if_neg (by decide)]
          refine ⟨(n + 0x102000) :: u, _, ?_, ?_, .loneLow n _ t hl e3⟩
          · rw [scanUnits_lone hs', e1]; rfl
          · rw [joinUnits_plain (by omega), e2]
            show some (standIn n :: t) = _
            rw [(standIn_toNat hs').2]
        · rename_i hl
          refine ⟨n :: u, _, ?_, ?_, .plain n _ t (by omega) e3⟩
          · show scanUnits ('\\' :: 'u' :: a :: b :: c :: d :: _) = _
            rw [scanUnits, hn]
            show consUnit n (scanUnits (joinTokens false (jsonTokens rest))) = _
            rw [e1]
            rfl
          · rw [joinUnits_plain (by omega), e2]; rfl
    · simp only [List.length_cons] at hs
      obtain ⟨u, t, e1, e2, e3⟩ := ih rest (by omega) _ _ hr
      rw [jsonTokens_escape hc, joinTokens]
      have hsm := simpleEscape_small hn
      refine ⟨n :: u, _, ?_, ?_, .plain n _ t (by omega) e3⟩
      · rw [scanUnits, hn]
        · dsimp only
          rw [e1]
          rfl
        · rintro a b c' d rest' h
          exact absurd h hc
      · rw [joinUnits_plain (by omega), e2]; rfl
    · simp only [List.length_cons] at hs
      obtain ⟨u, t, e1, e2, e3⟩ := ih rest (by omega) _ _ hr
      rw [jsonTokens_char h2, joinTokens]
      refine ⟨c.toNat :: u, _, ?_, ?_, .plain _ _ t (char_not_surrogate c) e3⟩
      · rw [scanUnits_char h1 h2 h3, e1]; rfl
      · rw [joinUnits_plain (char_not_surrogate c), e2]; rfl

end Verif
