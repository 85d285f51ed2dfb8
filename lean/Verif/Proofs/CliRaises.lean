import Verif.Spec.CliRaises
import Verif.Props.Cli
/-! lemmas for C110: the exceptions of the command line tool -/

namespace Verif
open FileProg

/-- the exception of one reading program after the other -/
theorem seq_error {α β : Type} {P : FsPath → Prop} {prog : FileProg α} {f : α → FileProg β} (h : OnlyReads P prog)
    (hf : ∀ a, ∃ Q, OnlyReads Q (f a)) {w : FileWorld} {e : Exc} :
    ((prog >>= f) w).1 = .error e ↔ (prog w).1 = .error e ∨ ∃ a, (prog w).1 = .ok a ∧ (f a w).1 = .error e := by
  have hb : (prog >>= f) w = match prog w with
      | (.ok a, w') => f a w'
      | (.error e, w') => (.error e, w') := rfl
  have hfs := h.fs w
  rw [hb]
  rcases hp : prog w with ⟨r, w1⟩
  rw [hp] at hfs
  cases r with
  | error e => simp
  | ok a =>
    obtain ⟨Q, hQ⟩ := hf a
    simp only [Except.ok.injEq, exists_eq_left', reduceCtorEq, false_or]
    rw [hQ.result w1 w hfs]

theorem lift_error {α : Type} {r : PyRes α} {w : FileWorld} {e : Exc} : (FileProg.lift r w).1 = .error e ↔ r = .error e := Iff.rfl

theorem isDir_or_content {fs : FsNode} {p : FsPath} (hex : fs.exists p = true) :
    (fs.isDir p = true ∧ fs.contentAt p = none) ∨ (fs.isDir p = false ∧ ∃ b, fs.contentAt p = some b) := by
  unfold FsNode.exists at hex
  unfold FsNode.isDir FsNode.contentAt
  cases h : fs.resolve p with
  | error e => rw [h] at hex; cases hex
  | ok m => cases m <;> simp

theorem readBytes_error {env : FileEnv} {p : FsPath} {w : FileWorld} (hex : w.fs.exists p = true) (hr : env.readDenied p = false)
    {e : Exc} : (readBytes env p w).1 = .error e ↔ w.fs.isDir p = true ∧ e = .other := by
  unfold FsNode.exists at hex
  unfold FileProg.readBytes FsNode.isDir
  cases h : w.fs.resolve p with
  | error x => rw [h] at hex; cases hex
  | ok m => cases m <;> simp [hr, eq_comm]

theorem decodeUtf8_error {b : Bytes} {e : Exc} : decodeUtf8 b = .error e ↔ (∀ text, decodeUtf8 b ≠ .ok text) ∧ e = .valueError := by
  unfold decodeUtf8
  split
  · simp [eq_comm]
  · rename_i a _
    simp only [reduceCtorEq, false_iff, not_and]
    intro h
    exact absurd rfl (h (universalNewlines a.toList))

theorem readText_error {env : FileEnv} {p : FsPath} {w : FileWorld} (hex : w.fs.exists p = true) (hr : env.readDenied p = false)
    {e : Exc} : (readText env p w).1 = .error e ↔ TextFails w.fs p e := by
  unfold readText
  rw [seq_error (OnlyReads.readBytes env p) fun _ => ⟨fun _ => True, .lift _⟩]
  rw [readBytes_error hex hr]
  simp only [readBytes_ok, lift_error, decodeUtf8_error]
  constructor
  · rintro (⟨h, rfl⟩ | ⟨b, ⟨hb, _⟩, hd, rfl⟩)
    · exact .directory h
    · exact .encoding b hb hd
  · rintro (⟨h⟩ | ⟨b, hb, hd⟩)
    · exact .inl ⟨h, rfl⟩
    · exact .inr ⟨b, ⟨hb, hr⟩, hd, rfl⟩

theorem readMig_error {env : CliEnv} {p : FsPath} {w : FileWorld} (hex : w.fs.exists p = true) (hr : env.files.readDenied p = false)
    {e : Exc} : (readMig env p w).1 = .error e ↔
      (w.fs.isDir p = true ∧ e = .other) ∨ ∃ b, w.fs.contentAt p = some b ∧ env.parseXml b = .error e := by
  unfold readMig
  have r := OnlyReads.readBytes env.files p
  rw [seq_error r fun _ => ⟨_, (OnlyReads.lift _).seq fun _ => r.seq fun _ => (OnlyReads.lift _).seq fun _ => .pure _⟩,
    readBytes_error hex hr]
  refine or_congr Iff.rfl ⟨?_, ?_⟩
  · rintro ⟨b, h1, h2⟩
    have hb := readBytes_ok.1 h1
    rw [seq_error (P := fun _ => True) (OnlyReads.lift _) fun _ => ⟨_, r.seq fun _ => (OnlyReads.lift _).seq fun _ => .pure _⟩] at h2
    rcases h2 with h2 | ⟨x, h2, h3⟩
    · exact ⟨b, hb.1, h2⟩
    · rw [seq_error r fun _ => ⟨_, (OnlyReads.lift (P := fun _ => True) _).seq fun _ => .pure _⟩] at h3
      rcases h3 with h3 | ⟨b', h3, h4⟩
      · rw [h1] at h3; cases h3
      · rw [h1] at h3
        cases h3
        rw [seq_error (P := fun _ => True) (OnlyReads.lift _) fun _ => ⟨fun _ => True, .pure _⟩] at h4
        rcases h4 with h4 | ⟨_, _, h4⟩
        · exact ⟨b, hb.1, h4⟩
        · cases h4
  · rintro ⟨b, h1, h2⟩
    refine ⟨b, readBytes_ok.2 ⟨h1, hr⟩, ?_⟩
    rw [seq_error (P := fun _ => True) (OnlyReads.lift _) fun _ => ⟨_, r.seq fun _ => (OnlyReads.lift _).seq fun _ => .pure _⟩]
    exact .inl h2

theorem generate_error {env : CliEnv} {o : CliOptions} {w : FileWorld}
    (hex : ∀ p, o.IsInput p → w.fs.exists p = true ∧ env.files.readDenied p = false) {e : Exc} :
    (generate env o w).1 = .error e ↔ InputFails env w.fs o e := by
  unfold generate
  obtain ⟨x1, y1⟩ := hex o.flatAhbPath (.inl rfl)
  obtain ⟨x2, y2⟩ := hex o.sghPath (.inr (.inl rfl))
  obtain ⟨x3, y3⟩ := hex o.templatePath (.inr (.inr rfl))
  have l : ∀ {α β : Type} {r : PyRes α} {f : α → FileProg β} (hf : ∀ a, ∃ Q, OnlyReads Q (f a)) {e : Exc},
      ((FileProg.lift r >>= f) w).1 = .error e ↔ r = .error e ∨ ∃ a, r = .ok a ∧ (f a w).1 = .error e :=
    fun hf => seq_error (P := fun _ => True) (OnlyReads.lift _) hf
  have r6 : ∀ a : FlatAhb × DeepAhb, ∃ Q, OnlyReads Q (match a with | (_, maus) => (Pure.pure maus : FileProg DeepAhb)) :=
    fun a => ⟨fun _ => True, OnlyReads.pure _⟩
  have r5 : ∀ (flat : FlatAhb) (sgh : Sgh) (root : Xml), OnlyReads (fun _ => True) (do
      let (_, maus) ← FileProg.lift (toDeepAhb (migLookup root) env.posStr flat sgh)
      Pure.pure maus : FileProg DeepAhb) := fun _ _ _ => (OnlyReads.lift _).seq fun _ => .pure _
  have r4 : ∀ (flat : FlatAhb) (sgh : Sgh), OnlyReads (fun _ => True) (do
      let root ← readMig env o.templatePath
      let (_, maus) ← FileProg.lift (toDeepAhb (migLookup root) env.posStr flat sgh)
      Pure.pure maus : FileProg DeepAhb) := fun _ _ => ((OnlyReads.readMig _ _).mono fun _ _ => trivial).seq fun _ => r5 _ _ _
  have r3 : ∀ (flat : FlatAhb) (t : PyStr), OnlyReads (fun _ => True) (do
      let sgh ← FileProg.lift ((jsonLoads t).bind Sgh.load)
      let root ← readMig env o.templatePath
      let (_, maus) ← FileProg.lift (toDeepAhb (migLookup root) env.posStr flat sgh)
      Pure.pure maus : FileProg DeepAhb) := fun _ _ => (OnlyReads.lift _).seq fun _ => r4 _ _
  have r2 : ∀ (flat : FlatAhb), OnlyReads (fun _ => True) (do
      let t ← readText env.files o.sghPath
      let sgh ← FileProg.lift ((jsonLoads t).bind Sgh.load)
      let root ← readMig env o.templatePath
      let (_, maus) ← FileProg.lift (toDeepAhb (migLookup root) env.posStr flat sgh)
      Pure.pure maus : FileProg DeepAhb) := fun _ => ((OnlyReads.readText _ _).mono fun _ _ => trivial).seq fun _ => r3 _ _
  rw [seq_error (OnlyReads.readText _ _) fun _ => ⟨_, (OnlyReads.lift _).seq fun _ => r2 _⟩]
  constructor
  · rintro (h | ⟨t, ht, h⟩)
    · exact .flatText e ((readText_error x1 y1).1 h)
    have ht := readText_ok.1 ht
    rcases (l fun _ => ⟨_, r2 _⟩).1 h with h | ⟨flat, hflat, h⟩
    · exact .flat t e ht h
    have hf : FlatGiven env w.fs o flat := ⟨t, ht, hflat⟩
    rcases (seq_error (OnlyReads.readText _ _) fun _ => ⟨_, r3 _ _⟩).1 h with h | ⟨t', ht', h⟩
    · exact .sghText flat e hf ((readText_error x2 y2).1 h)
    have ht' := readText_ok.1 ht'
    rcases (l fun _ => ⟨_, r4 _ _⟩).1 h with h | ⟨sgh, hsgh, h⟩
    · exact .sgh flat t' e hf ht' h
    have hs : SghGiven env w.fs o sgh := ⟨t', ht', hsgh⟩
    rcases (seq_error (OnlyReads.readMig _ _) fun _ => ⟨_, r5 _ _ _⟩).1 h with h | ⟨root, hroot, h⟩
    · rcases (readMig_error x3 y3).1 h with ⟨hdir, rfl⟩ | ⟨b, hb, h⟩
      · exact .templateIsDirectory flat sgh hf hs hdir
      · exact .template flat sgh b e hf hs hb h
    rcases (l r6).1 h with h | ⟨⟨flat', m⟩, hd, h⟩
    · exact .maus flat sgh root e hf hs (readMig_ok.1 hroot) h
    · cases h
  · intro h
    cases h with
    | flatText _ h => exact .inl ((readText_error x1 y1).2 h)
    | flat t _ ht h => exact .inr ⟨t, readText_ok.2 ht, (l fun _ => ⟨_, r2 _⟩).2 (.inl h)⟩
    | sghText flat _ hf h =>
      obtain ⟨t1, ht1, hl1⟩ := hf
      refine .inr ⟨t1, readText_ok.2 ht1, (l fun _ => ⟨_, r2 _⟩).2 (.inr ⟨flat, hl1, ?_⟩)⟩
      exact (seq_error (OnlyReads.readText _ _) fun _ => ⟨_, r3 _ _⟩).2 (.inl ((readText_error x2 y2).2 h))
    | sgh flat t _ hf ht h =>
      obtain ⟨t1, ht1, hl1⟩ := hf
      refine .inr ⟨t1, readText_ok.2 ht1, (l fun _ => ⟨_, r2 _⟩).2 (.inr ⟨flat, hl1, ?_⟩)⟩
      exact (seq_error (OnlyReads.readText _ _) fun _ => ⟨_, r3 _ _⟩).2
        (.inr ⟨t, readText_ok.2 ht, (l fun _ => ⟨_, r4 _ _⟩).2 (.inl h)⟩)
    | templateIsDirectory flat sgh hf hs h =>
      obtain ⟨t1, ht1, hl1⟩ := hf
      obtain ⟨t2, ht2, hl2⟩ := hs
      refine .inr ⟨t1, readText_ok.2 ht1, (l fun _ => ⟨_, r2 _⟩).2 (.inr ⟨flat, hl1, ?_⟩)⟩
      refine (seq_error (OnlyReads.readText _ _) fun _ => ⟨_, r3 _ _⟩).2
        (.inr ⟨t2, readText_ok.2 ht2, (l fun _ => ⟨_, r4 _ _⟩).2 (.inr ⟨sgh, hl2, ?_⟩)⟩)
      exact (seq_error (OnlyReads.readMig _ _) fun _ => ⟨_, r5 _ _ _⟩).2 (.inl ((readMig_error x3 y3).2 (.inl ⟨h, rfl⟩)))
    | template flat sgh b _ hf hs hb h =>
      obtain ⟨t1, ht1, hl1⟩ := hf
      obtain ⟨t2, ht2, hl2⟩ := hs
      refine .inr ⟨t1, readText_ok.2 ht1, (l fun _ => ⟨_, r2 _⟩).2 (.inr ⟨flat, hl1, ?_⟩)⟩
      refine (seq_error (OnlyReads.readText _ _) fun _ => ⟨_, r3 _ _⟩).2
        (.inr ⟨t2, readText_ok.2 ht2, (l fun _ => ⟨_, r4 _ _⟩).2 (.inr ⟨sgh, hl2, ?_⟩)⟩)
      exact (seq_error (OnlyReads.readMig _ _) fun _ => ⟨_, r5 _ _ _⟩).2 (.inl ((readMig_error x3 y3).2 (.inr ⟨b, hb, h⟩)))
    | maus flat sgh root _ hf hs hm h =>
      obtain ⟨t1, ht1, hl1⟩ := hf
      obtain ⟨t2, ht2, hl2⟩ := hs
      refine .inr ⟨t1, readText_ok.2 ht1, (l fun _ => ⟨_, r2 _⟩).2 (.inr ⟨flat, hl1, ?_⟩)⟩
      refine (seq_error (OnlyReads.readText _ _) fun _ => ⟨_, r3 _ _⟩).2
        (.inr ⟨t2, readText_ok.2 ht2, (l fun _ => ⟨_, r4 _ _⟩).2 (.inr ⟨sgh, hl2, ?_⟩)⟩)
      exact (seq_error (OnlyReads.readMig _ _) fun _ => ⟨_, r5 _ _ _⟩).2 (.inr ⟨root, readMig_ok.2 hm, (l r6).2 (.inl h)⟩)

/-! ## writing -/

theorem store_error {content : Bytes} {e : Exc} : ∀ {p : FsPath} {n : FsNode}, n.isDir p = false → (n.store content p = .error e ↔
    (∃ dir name, p = dir ++ [name] ∧ n.resolve dir = .error e) ∨
    (e = .other ∧ ∃ dir name b, p = dir ++ [name] ∧ n.contentAt dir = some b))
  | [], .file b, _ => by simp [FsNode.store]
  | [], .dir es, h => by simp [FsNode.isDir, FsNode.resolve] at h
  | c :: p, .file b, _ => by
    simp only [FsNode.store, Except.error.injEq]
    rcases List.eq_nil_or_concat (c :: p) with h | ⟨d, x, h⟩
    · cases h
    rw [List.concat_eq_append] at h
    constructor
    · rintro rfl
      cases d with
      | nil => exact .inr ⟨rfl, [], x, b, h, rfl⟩
      | cons y d => exact .inl ⟨y :: d, x, h, rfl⟩
    · rintro (⟨d', x', _, hr⟩ | ⟨rfl, _⟩)
      · cases d' with
        | nil => simp [FsNode.resolve] at hr
        | cons y d' => simpa [FsNode.resolve] using hr
      · rfl
  | c :: p, .dir es, hd => by
    cases hm : dictGet c es with
    | some m =>
      have hd' : m.isDir p = false := by
        unfold FsNode.isDir at hd ⊢
        rw [FsNode.resolve, hm] at hd
        exact hd
      have ih := store_error (content := content) (e := e) (p := p) (n := m) hd'
      have hl : (FsNode.dir es).store content (c :: p) = .error e ↔ m.store content p = .error e := by
        rw [FsNode.store, hm]
        dsimp only
        cases m.store content p <;> simp [Except.map]
      rw [hl, ih]
      have hres : ∀ d, (FsNode.dir es).resolve (c :: d) = m.resolve d := fun d => by rw [FsNode.resolve, hm]
      have hcon : ∀ d, (FsNode.dir es).contentAt (c :: d) = m.contentAt d := fun d => by unfold FsNode.contentAt; rw [hres]
      constructor
      · rintro (⟨d, x, rfl, h⟩ | ⟨he, d, x, b, rfl, h⟩)
        · exact .inl ⟨c :: d, x, rfl, by rw [hres]; exact h⟩
        · exact .inr ⟨he, c :: d, x, b, rfl, by rw [hcon]; exact h⟩
      · rintro (⟨d, x, hp, h⟩ | ⟨he, d, x, b, hp, h⟩)
        · cases d with
          | nil => simp [FsNode.resolve] at h
          | cons y d =>
            injection hp with h1 h2
            subst h1
            rw [hres] at h
            exact .inl ⟨d, x, h2, h⟩
        · cases d with
          | nil => simp [FsNode.contentAt, FsNode.resolve] at h
          | cons y d =>
            injection hp with h1 h2
            subst h1
            rw [hcon] at h
            exact .inr ⟨he, d, x, b, h2, h⟩
    | none =>
      have hl : (FsNode.dir es).store content (c :: p) = .error e ↔ p ≠ [] ∧ e = .fileNotFoundError := by
        rw [FsNode.store, hm]
        cases p <;> simp [eq_comm]
      rw [hl]
      have hres : ∀ d, (FsNode.dir es).resolve (c :: d) = .error .fileNotFoundError := fun d => by rw [FsNode.resolve, hm]
      have hcon : ∀ d, (FsNode.dir es).contentAt (c :: d) = none := fun d => by unfold FsNode.contentAt; rw [hres]
      constructor
      · rintro ⟨hp, rfl⟩
        rcases List.eq_nil_or_concat p with h | ⟨d, x, h⟩
        · exact absurd h hp
        · exact .inl ⟨c :: d, x, by rw [h, List.concat_eq_append]; rfl, hres d⟩
      · rintro (⟨d, x, hp, h⟩ | ⟨he, d, x, b, hp, h⟩)
        · cases d with
          | nil => simp [FsNode.resolve] at h
          | cons y d =>
            injection hp with h1 h2
            subst h1
            rw [hres] at h
            cases h
            refine ⟨?_, rfl⟩
            rw [h2]
            simp
        · cases d with
          | nil => simp [FsNode.contentAt, FsNode.resolve] at h
          | cons y d =>
            injection hp with h1 h2
            subst h1
            rw [hcon] at h
            cases h

theorem writeBytes_error {env : FileEnv} {p : FsPath} {content : Bytes} {w : FileWorld} (hd : w.fs.isDir p = false) {e : Exc} :
    (writeBytes env p content w).1 = .error e ↔ WriteFails env w.fs p content.length e := by
  have hplace := @store_ok_iff [] p w.fs
  have hplace' : (∃ n', w.fs.store [] p = .ok n') ↔
      (w.fs.contentAt p ≠ none ∨ ∃ dir name, p = dir ++ [name] ∧ w.fs.isDir dir = true) := by
    have h := @canWrite_iff { env with writeDenied := fun _ => false, space := none } w.fs p []
    unfold CanWrite at h
    simp only [hd, and_true, reduceCtorEq, false_implies, implies_true] at h
    exact h.symm
  clear hplace
  by_cases hden : env.writeDenied p = true
  · have hw : (writeBytes env p content w).1 = .error .other := by
      unfold FileProg.writeBytes; rw [if_pos hden]
    rw [hw]
    constructor
    · intro h; cases h; exact .denied hden
    · intro h
      cases h <;> first | rfl | simp_all
  · have hden' : env.writeDenied p = false := by simpa using hden
    cases hs : w.fs.store [] p with
    | error x =>
      have hw : (writeBytes env p content w).1 = .error x := by
        unfold FileProg.writeBytes; rw [if_neg hden, hs]
      rw [hw]
      have hno : ¬ (w.fs.contentAt p ≠ none ∨ ∃ dir name, p = dir ++ [name] ∧ w.fs.isDir dir = true) := by
        rw [← hplace', hs]; simp
      have hx := fun e => @store_error [] e p w.fs hd
      rw [hs] at hx
      constructor
      · intro h
        injection h with h
        subst h
        rcases (hx x).1 rfl with ⟨d, c, hp, h⟩ | ⟨rfl, d, c, b, hp, h⟩
        · exact .noDirectory d c x hden' hp h
        · exact .directoryIsFile d c b hden' hp h
      · intro h
        cases h with
        | denied h => exact absurd h hden
        | noDirectory d c _ _ hp h => rw [Except.error.inj ((hx e).2 (.inl ⟨d, c, hp, h⟩))]
        | directoryIsFile d c b _ hp h => rw [Except.error.inj ((hx .other).2 (.inr ⟨rfl, d, c, b, hp, h⟩))]
        | full n _ place => exact absurd place hno
    | ok fs0 =>
      rcases writeBytes_cases env p content w with ⟨x, _, hx | hx⟩ | ⟨part, fs0', fs', _, _, _, _, hs2, hiff, hw⟩
      · exact absurd hx hden
      · obtain ⟨_, n, h⟩ := store_store (content' := content) hs
        exact absurd h (hx n)
      · rw [hw]
        dsimp only
        have hno : ∀ d c, p = d ++ [c] → (∀ x, w.fs.resolve d ≠ .error x) ∧ ∀ b, w.fs.contentAt d ≠ some b := by
          intro d c hp
          have hx := fun e => @store_error [] e p w.fs hd
          rw [hs] at hx
          exact ⟨fun x h => absurd ((hx x).2 (.inl ⟨d, c, hp, h⟩)) (by simp),
            fun b h => absurd ((hx .other).2 (.inr ⟨rfl, d, c, b, hp, h⟩)) (by simp)⟩
        constructor
        · intro h
          split at h
          · cases h
          · cases h
            rename_i hne
            have hne' : ¬ ∀ n, env.space = some n → content.length ≤ n := fun h => hne (hiff.2 h)
            cases hsp : env.space with
            | none => exact absurd (fun n h => by rw [hsp] at h; cases h) hne'
            | some n =>
              refine .full n hden' (hplace'.1 ⟨_, hs⟩) hsp ?_
              refine Nat.lt_of_not_le fun hle => hne' fun m h => ?_
              rw [hsp] at h
              cases h
              exact hle
        · intro h
          cases h with
          | denied h => exact absurd h hden
          | noDirectory d c _ _ hp h => exact absurd h ((hno d c hp).1 _)
          | directoryIsFile d c b _ hp h => exact absurd h ((hno d c hp).2 b)
          | full n _ _ hsp hn =>
            rw [if_neg fun h => absurd (hiff.1 h n hsp) (by omega)]

/-! ## checking -/

theorem checkMaus_error {env : FileEnv} {maus : DeepAhb} {p : FsPath} {w : FileWorld} (hex : w.fs.exists p = true)
    (hr : env.readDenied p = false) {e : Exc} : (checkMaus env maus p w).1 = .error e ↔ CheckFails env w.fs p maus e := by
  have heq : ∀ a b : DeepAhb, a.resetAhbLineIndex = b.resetAhbLineIndex ↔ EqualUpToIndex a b := C27_equal_up_to_index
  have hg : OnlyReads (· = p) (readText env p) := OnlyReads.readText env p
  have hb : (checkMaus env maus p w).1 = match (readText env p w).1 with
      | .error x => .error x
      | .ok text => match (jsonLoads text).bind DeepAhb.load with
        | .error x => .error x
        | .ok expected => if expected.resetAhbLineIndex = maus.resetAhbLineIndex then .ok () else .error .abort := by
    unfold checkMaus
    rcases h : readText env p w with ⟨_ | t, w'⟩
    · rw [seq_of_error h]
    · rw [seq_of_ok h]
      dsimp only
      rcases h' : (jsonLoads t).bind DeepAhb.load with _ | expected
      · rw [seq_of_error (prog := FileProg.lift _) (w := w') rfl]
      · rw [seq_of_ok (prog := FileProg.lift _) (w := w') rfl]
        dsimp only
        by_cases he : expected.resetAhbLineIndex = maus.resetAhbLineIndex
        · rw [if_pos he, if_pos he]; rfl
        · rw [if_neg he, if_neg he]; rfl
  rw [hb]
  have hfail := fun e => @readText_error env p w hex hr e
  have hok := fun t => @readText_ok env p w t
  generalize (readText env p w).1 = r at *
  cases r with
  | error x =>
    simp only [Except.error.injEq] at hfail ⊢
    constructor
    · rintro rfl; exact .text x ((hfail x).1 rfl)
    · intro h
      cases h with
      | text _ h => exact (hfail e).2 h
      | load t _ ht => exact absurd ((hok t).2 ht) (by simp)
      | different _ hs => obtain ⟨t, ht, _⟩ := hs; exact absurd ((hok t).2 ht) (by simp)
  | ok text =>
    have ht := (hok text).1 rfl
    have hu : ∀ t, TextAt env w.fs p t → t = text := fun t h => by have := (hok t).2 h; injection this with this; exact this.symm
    have hnt : ∀ x, ¬ TextFails w.fs p x := fun x h => by have := (hfail x).2 h; cases this
    dsimp only
    cases hl : (jsonLoads text).bind DeepAhb.load with
    | error x =>
      simp only [Except.error.injEq]
      constructor
      · rintro rfl; exact .load text x ht hl
      · intro h
        cases h with
        | text _ h => exact absurd h (hnt e)
        | load t _ ht' h => rw [hu t ht', hl] at h; injection h
        | different _ hs => obtain ⟨t, ht', h⟩ := hs; rw [hu t ht', hl] at h; cases h
    | ok expected =>
      dsimp only
      constructor
      · intro h
        split at h
        · cases h
        · rename_i hne
          cases h
          exact .different expected ⟨text, ht, hl⟩ fun h => hne ((heq _ _).2 h)
      · intro h
        cases h with
        | text _ h => exact absurd h (hnt e)
        | load t _ ht' h => rw [hu t ht', hl] at h; cases h
        | different x hs h =>
          obtain ⟨t, ht', h'⟩ := hs
          rw [hu t ht', hl] at h'
          cases h'
          rw [if_neg fun h' => h ((heq _ _).1 h')]

theorem not_oneMode {o : CliOptions} : ¬ OneMode o ↔ o.checkPath.isSome = o.outputPath.isSome := Classical.not_not

theorem cliCommand_error {env : CliEnv} {o : CliOptions} {w : FileWorld} {e : Exc} :
    (cliCommand env o w).1 = .error e ↔ CommandFails env w.fs o e := by
  obtain ⟨h1, h2⟩ := cliCommand_run env o w
  by_cases hp : PathsOk env.files w.fs o
  swap
  · rw [h2 hp]
    constructor
    · intro h; cases h; exact .usage hp
    · intro h
      cases h <;> first | rfl | (exfalso; exact hp (by assumption))
  rw [h1 hp]
  by_cases hm : OneMode o
  swap
  · rw [cliMain_ambiguous env o w (not_oneMode.1 hm)]
    constructor
    · intro h; cases h; exact .ambiguous hp hm
    · intro h
      cases h with
      | usage h => exact absurd hp h
      | ambiguous => rfl
      | input _ _ h => exact absurd h hm
      | output p _ _ _ h h' => exact absurd (by unfold OneMode; rw [h, h']; simp) hm
      | check p _ _ _ h h' => exact absurd (by unfold OneMode; rw [h, h']; simp) hm
  have hin : ∀ p, o.IsInput p → w.fs.exists p = true ∧ env.files.readDenied p = false := by
    rintro p (h | h | h)
    · exact hp.1 p (.inl h)
    · exact hp.1 p (.inr (.inl h))
    · exact hp.1 p (.inr (.inr (.inl h)))
  have hge := fun e => @generate_error env o w hin e
  obtain ⟨r, l, h3, h4, -⟩ := generate_run env o w
  rw [h3] at hge
  dsimp only at hge
  have hmodes : (∃ p, o.checkPath = none ∧ o.outputPath = some p) ∨ ∃ p, o.checkPath = some p ∧ o.outputPath = none := by
    unfold OneMode at hm
    cases hc : o.checkPath <;> cases ho : o.outputPath <;> simp [hc, ho] at hm ⊢
  have hfailed : ∀ x, r = .error x → (CommandFails env w.fs o e ↔ x = e) := by
    rintro x rfl
    constructor
    · intro h
      have hno : ∀ maus, ¬ Generates env w.fs o maus := fun maus h => by have := (h4 maus).2 h; cases this
      cases h with
      | usage h => exact absurd hp h
      | ambiguous _ h => exact absurd hm h
      | input _ _ _ h => have := (hge e).2 h; injection this
      | output p maus _ _ _ _ h => exact absurd h (hno maus)
      | check p maus _ _ _ _ h => exact absurd h (hno maus)
    · rintro rfl
      exact .input x hp hm ((hge x).1 rfl)
  rcases hmodes with ⟨p, hc, ho⟩ | ⟨p, hc, ho⟩
  · rw [cliMain_output env o w p hc ho, h3]
    cases r with
    | error x => rw [hfailed x rfl]; simp
    | ok maus =>
      dsimp only
      have hg := (h4 maus).1 rfl
      unfold writeMaus
      rw [writeBytes_error (w := { fs := w.fs, log := w.log ++ l }) (hp.2 p ho).1]
      constructor
      · intro h; exact .output p maus e hp hc ho hg h
      · intro h
        cases h with
        | usage h => exact absurd hp h
        | ambiguous _ h => exact absurd hm h
        | input _ _ _ h => have := (hge e).2 h; cases this
        | output p' maus' _ _ _ ho' hg' h =>
          rw [ho] at ho'
          cases ho'
          rw [generates_unique hg' hg] at h
          exact h
        | check p' maus' _ _ hc' => rw [hc] at hc'; cases hc'
  · rw [cliMain_check env o w p hc ho, h3]
    cases r with
    | error x => rw [hfailed x rfl]; simp
    | ok maus =>
      dsimp only
      have hg := (h4 maus).1 rfl
      obtain ⟨hex, hr⟩ := hp.1 p (.inr (.inr (.inr hc)))
      rw [checkMaus_error (w := { fs := w.fs, log := w.log ++ l }) hex hr]
      constructor
      · intro h; exact .check p maus e hp hc ho hg h
      · intro h
        cases h with
        | usage h => exact absurd hp h
        | ambiguous _ h => exact absurd hm h
        | input _ _ _ h => have := (hge e).2 h; cases this
        | output p' maus' _ _ _ ho' => rw [ho] at ho'; cases ho'
        | check p' maus' _ _ hc' _ hg' h =>
          rw [hc] at hc'
          cases hc'
          rw [generates_unique hg' hg] at h
          exact h

end Verif
