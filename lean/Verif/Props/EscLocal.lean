import Verif.Model.EscLocal
import Verif.Props.EscOpenFS
/-
C70: the embedded files with `useLocal = true`.
-/
set_option autoImplicit false

namespace Verif.Props
open Verif.Model Verif.Model.EscLocal Verif.Spec
open Verif.Model.Esc (Err)

/-- The paths that may be opened: the data files, relative to the working directory, and three directories. -/
def Listed (path : List Char) : Prop :=
  (∃ y : Int, 1900 ≤ y ∧ y ≤ 2040 ∧ path = "data/astro/astro-".toList ++ (toString y).toList ++ ".json".toList) ∨
  path = "/".toList ∨ path = "/data".toList ∨ path = "/data/astro".toList

theorem escData_mem {k : List Char} {e : EscEntry} (h : escData.lookup k = some e) : (k, e) ∈ escData := by
  generalize escData = l at h
  induction l with
  | nil => simp at h
  | cons p l ih =>
    obtain ⟨a, b⟩ := p
    rw [List.lookup_cons] at h
    split at h
    · rename_i hk
      rw [eq_of_beq hk, Option.some.inj h]; exact List.mem_cons_self
    · exact List.mem_cons_of_mem _ (ih h)

theorem escData_cases {k : List Char} {e : EscEntry} (h : (k, e) ∈ escData) :
    (∃ y : Int, 1900 ≤ y ∧ y ≤ 2040 ∧ e = .file y ∧ k = '/' :: ("data/astro/astro-".toList ++ (toString y).toList ++ ".json".toList)) ∨
    (e = .dir ∧ (k = "/".toList ∨ k = "/data".toList ∨ k = "/data/astro".toList)) := by
  rw [escData, List.mem_append] at h
  rcases h with h | h
  · obtain ⟨i, hi, he⟩ := List.mem_map.1 h
    rw [List.mem_range] at hi
    simp only [Prod.mk.injEq] at he
    exact Or.inl ⟨1900 + (i : Int), by omega, by omega, he.2.symm, he.1.symm⟩
  · right
    simp only [List.mem_cons, Prod.mk.injEq, List.not_mem_nil, or_false] at h
    rcases h with ⟨h1, h2⟩ | ⟨h1, h2⟩ | ⟨h1, h2⟩
    · exact ⟨h2, Or.inl h1⟩
    · exact ⟨h2, Or.inr (Or.inl h1)⟩
    · exact ⟨h2, Or.inr (Or.inr h1)⟩

theorem localPath_listed {k p : List Char} (h : localPath k = some p) : Listed p := by
  rw [localPath, Option.map_eq_some_iff] at h
  obtain ⟨e, he, hp⟩ := h
  rcases escData_cases (escData_mem he) with ⟨y, h1, h2, rfl, rfl⟩ | ⟨rfl, hk⟩
  · exact Or.inl ⟨y, h1, h2, hp.symm⟩
  · exact Or.inr (hp ▸ hk)

theorem localOpen_tried (m : Machine) (name : List Char) :
    (localOpen m name).1.tried = m.tried ∨ ∃ p, Listed p ∧ (localOpen m name).1.tried = p :: m.tried := by
  unfold localOpen
  cases h : localPath (pathClean name) with
  | none => exact Or.inl rfl
  | some p =>
    right
    refine ⟨p, localPath_listed h, ?_⟩
    simp only [osOpen]
    split
    · rfl
    · split <;> rfl

theorem openFile_tried (m : Machine) (name : List Char) : (EscLocal.openFile m name).1.tried = (localOpen m name).1.tried := by
  unfold EscLocal.openFile; split <;> simp_all

theorem fsByte_tried (m : Machine) (name : List Char) : (EscLocal.fsByte m name).1.tried = (localOpen m name).1.tried := by
  unfold EscLocal.fsByte; split <;> simp_all

theorem fsMust_state (m : Machine) (name : List Char) : (fsMust m name).1 = (EscLocal.fsByte m name).1 := by
  unfold fsMust; split <;> simp_all

/-- Whatever names are asked for, in whatever order, only the listed paths are ever handed to the operating system. -/
theorem c70_confined (m : Machine) (ops : List EscLocal.Op) : ∃ new, (EscLocal.run m ops).tried = new ++ m.tried ∧ ∀ p ∈ new, Listed p := by
  induction ops generalizing m with
  | nil => exact ⟨[], rfl, by simp⟩
  | cons op ops ih =>
    obtain ⟨new, h1, h2⟩ := ih (EscLocal.step m op)
    have hs : (EscLocal.step m op).tried = m.tried ∨ ∃ p, Listed p ∧ (EscLocal.step m op).tried = p :: m.tried := by
      cases op with
      | openFile name => rw [EscLocal.step, openFile_tried]; exact localOpen_tried m name
      | openIn dir name => rw [EscLocal.step, openIn, openFile_tried]; exact localOpen_tried m _
      | close => exact Or.inl rfl
      | fsByte name => rw [EscLocal.step, fsByte_tried]; exact localOpen_tried m name
      | fsMust name => rw [EscLocal.step, fsMust_state, fsByte_tried]; exact localOpen_tried m name
      | collect => exact Or.inl rfl
    show ∃ new, (EscLocal.run (EscLocal.step m op) ops).tried = new ++ m.tried ∧ _
    rcases hs with hs | ⟨p, hp, hs⟩
    · exact ⟨new, by rw [h1, hs], h2⟩
    · refine ⟨new ++ [p], by rw [h1, hs]; simp, ?_⟩
      intro q hq
      rcases List.mem_append.1 hq with hq | hq
      · exact h2 q hq
      · rw [List.mem_singleton.1 hq]; exact hp

/-- Upward steps in a name do not lead out of the table: the machine's password file is not even looked for. -/
example : (EscLocal.run ⟨fun _ => some (.file [1]), 9, 0, 0, []⟩
    [.fsByte "/../../etc/passwd".toList, .openIn "/data/astro/".toList "../../../etc/passwd".toList, .fsByte "//data/./astro/astro-1999.json".toList]).tried =
    ["data/astro/astro-1999.json".toList] := by decide +kernel

/-- A name that is not in the table is an error and nothing is looked for. -/
theorem c70_missing (m : Machine) (name : List Char) (h : escFind name = none) :
    EscLocal.fsByte m name = (m, [], some .notExist) ∧ EscLocal.openFile m name = (m, .inl .notExist) ∧ fsMust m name = (m, none) := by
  have hl : localPath (pathClean name) = none := by
    rw [localPath]
    rw [escFind] at h
    rw [h]; rfl
  have ho : localOpen m name = (m, .inl .notExist) := by rw [localOpen, hl]
  have hb : EscLocal.fsByte m name = (m, [], some .notExist) := by rw [EscLocal.fsByte, ho]
  exact ⟨hb, by rw [EscLocal.openFile, ho], by rw [fsMust, hb]⟩

/-- Such names: a year without a file, a directory outside and a path of the machine. -/
example : escFind "/data/astro/astro-1899.json".toList = none ∧ escFind "/data/..//etc".toList = none ∧
    escFind "data/astro/astro-1999.json".toList = none := by decide +kernel

/-- The path of a year's file. -/
def yearLocal (y : Int) : List Char := "data/astro/astro-".toList ++ (toString y).toList ++ ".json".toList

theorem local_file {name : List Char} {y : Int} (h : escFind name = some (.file y)) :
    localPath (pathClean name) = some (yearLocal y) ∧ 1900 ≤ y ∧ y ≤ 2040 := by
  rw [escFind] at h
  rcases escData_cases (escData_mem h) with ⟨y', h1, h2, he, hk⟩ | ⟨he, _⟩
  · cases he
    refine ⟨?_, h1, h2⟩
    rw [localPath, h, hk]; rfl
  · cases he

/-- With the files of the repository in the working directory, both ways give the same data of a year, under any name, after any history of
the embedded files. -/
theorem c70_same (m : Machine) (name : String) (y : Int) (hn : escFind name.toList = some (.file y))
    (hsame : ∀ rows, (y, rows) ∈ embeddedTable → m.node (yearLocal y) = some (.file ((asciiBytes (fileText rows)).map UInt8.ofNat)))
    (hfree : m.held + m.leaked < m.limit) (ops : List EscOpen.Op) (hq : ∀ o ∈ ops, Verif.Spec.EscOpen.isStore o = false) :
    ∃ data j, (EscOpen.step openEnv (EscOpen.run openEnv {} ops).1 (.fsByte name)).2 = .slice j data ∧
      (EscLocal.fsByte m name.toList).2 = (data, none) ∧ (fsMust m name.toList).2 = some data ∧
      (EscLocal.openFile m name.toList).2 = .inr (.file data) := by
  obtain ⟨hl, h1, h2⟩ := local_file hn
  obtain ⟨rows, j, hr, hs, -⟩ := c64_whole ops hq name y ⟨h1, h2⟩ hn
  have hnode := hsame rows hr
  have ho : localOpen m name.toList =
      ({ m with tried := yearLocal y :: m.tried }, .inr (.file ((asciiBytes (fileText rows)).map UInt8.ofNat))) := by
    rw [localOpen, hl]
    simp only [osOpen, hnode]
    rw [if_neg (by omega)]
  have hb : (EscLocal.fsByte m name.toList).2 = ((asciiBytes (fileText rows)).map UInt8.ofNat, none) := by
    rw [EscLocal.fsByte, ho]; rfl
  refine ⟨_, j, hs, hb, ?_, by rw [EscLocal.openFile, ho]⟩
  rw [fsMust]
  split
  · rename_i heq
    rw [heq] at hb
    simp at hb
  · rename_i heq
    rw [heq] at hb
    simp only [Prod.mk.injEq, and_true] at hb
    rw [hb]

/-- A machine with the file of 1999 in the working directory; the embedded one was asked for twice before. -/
example : let m : Machine := ⟨fun p => if p = yearLocal 1999 then (embeddedTable.find? (fun e => e.1 == 1999)).map fun e =>
        .file ((asciiBytes (fileText e.2)).map UInt8.ofNat) else none, 1024, 3, 0, []⟩
    ∃ data j, (EscOpen.step openEnv (EscOpen.run openEnv {} [.fsByte "/data", .fsByte "/data/astro/astro-1999.json"]).1
        (.fsByte "/data//astro/astro-1999.json")).2 = .slice j data ∧
      (EscLocal.fsByte m "/data//astro/astro-1999.json".toList).2 = (data, none) := by
  intro m
  obtain ⟨data, j, h1, h2, -⟩ := c70_same m "/data//astro/astro-1999.json" 1999 (by decide +kernel)
    (by intro rows hr; have := Verif.Lemmas.table_find hr; simp only at this; simp [m, this]) (by decide)
    [.fsByte "/data", .fsByte "/data/astro/astro-1999.json"] (by decide)
  exact ⟨data, j, h1, h2⟩

/-- The directories are those of the machine, from its root, not of the repository: opening `/` opens the root of the machine. Reading them
fails, while the embedded directories read as empty without an error. -/
theorem c70_directories (m : Machine) (name : List Char) (h : escFind name = some .dir) (hfree : m.held + m.leaked < m.limit)
    (hd : m.node (pathClean name) = some .dir) :
    (EscLocal.openFile m name).2 = .inr .dir ∧ (EscLocal.openFile m name).1.tried = pathClean name :: m.tried ∧
    (pathClean name).head? = some '/' ∧ (∃ e, (EscLocal.fsByte m name).2 = ([], some e)) ∧ (fsMust m name).2 = none ∧
    ∃ j, (EscOpen.step openEnv {} (.fsByte (String.ofList name))).2 = .slice j [] := by
  have hfind := h
  rw [escFind] at h
  have hk : (pathClean name).head? = some '/' := by
    rcases escData_cases (escData_mem h) with ⟨y', _, _, he, _⟩ | ⟨_, hk⟩
    · cases he
    · rcases hk with hk | hk | hk <;> rw [hk] <;> rfl
  have hl : localPath (pathClean name) = some (pathClean name) := by rw [localPath, h]; rfl
  have ho : localOpen m name = ({ m with tried := pathClean name :: m.tried }, .inr .dir) := by
    rw [localOpen, hl]
    simp only [osOpen, hd]
    rw [if_neg (by omega)]
  have hb : (EscLocal.fsByte m name) = ({ m with tried := pathClean name :: m.tried, leaked := m.leaked + 1 }, [], some (.other "is a directory")) := by
    rw [EscLocal.fsByte, ho]; rfl
  refine ⟨by rw [EscLocal.openFile, ho], by rw [EscLocal.openFile, ho], hk, ⟨_, by rw [hb]⟩, by rw [fsMust, hb], 0, ?_⟩
  have he := open_lookup (String.ofList name)
  rw [String.toList_ofList, hfind] at he
  simp only [Option.map_some] at he
  have hdec : EscOpen.decode directory = ([], none) := by rfl
  simp only [EscOpen.step, EscOpen.fsByte, EscOpen.prepare, he, hdec]
  simp [EscOpen.State.setFile]

/-- The three directories. -/
example : escFind "/".toList = some .dir ∧ escFind "/data/".toList = some .dir ∧ escFind "/data/astro/../astro".toList = some .dir := by
  decide +kernel

/-- `FSByte` leaves its file open: each successful call takes one more of the files a process may have open, and when none is left every
call fails (and `FSMustByte` panics), until files are collected. -/
theorem c70_leak (m : Machine) (name : List Char) (y : Int) (data : List UInt8) (hn : escFind name = some (.file y))
    (hd : m.node (yearLocal y) = some (.file data)) (n : Nat) :
    let after := EscLocal.run m (List.replicate n (.fsByte name))
    after.leaked = max m.leaked (min (m.leaked + n) (m.limit - m.held)) ∧ after.held = m.held ∧
    (m.limit ≤ m.held + m.leaked + n → (∃ e, (EscLocal.fsByte after name).2 = ([], some e)) ∧ (fsMust after name).2 = none) ∧
    (m.held + m.leaked + n < m.limit → (EscLocal.fsByte after name).2 = (data, none)) ∧
    (m.held < m.limit → (EscLocal.fsByte (collect after) name).2 = (data, none)) := by
  intro after
  obtain ⟨hl, -, -⟩ := local_file hn
  have full : ∀ m : Machine, m.node (yearLocal y) = some (.file data) → m.limit ≤ m.held + m.leaked →
      EscLocal.fsByte m name = ({ m with tried := yearLocal y :: m.tried }, [], some (.other "too many open files")) := by
    intro m hd hle
    simp only [EscLocal.fsByte, localOpen, hl, osOpen, hd]
    rw [if_pos hle]
  have free : ∀ m : Machine, m.node (yearLocal y) = some (.file data) → m.held + m.leaked < m.limit →
      EscLocal.fsByte m name = ({ m with tried := yearLocal y :: m.tried, leaked := m.leaked + 1 }, data, none) := by
    intro m hd hlt
    simp only [EscLocal.fsByte, localOpen, hl, osOpen, hd]
    rw [if_neg (by omega)]; rfl
  have key : ∀ (n : Nat) (m : Machine), m.node (yearLocal y) = some (.file data) →
      let a := EscLocal.run m (List.replicate n (.fsByte name))
      a.leaked = max m.leaked (min (m.leaked + n) (m.limit - m.held)) ∧ a.held = m.held ∧ a.limit = m.limit ∧ a.node = m.node := by
    intro n
    induction n with
    | zero => intro m hd; refine ⟨?_, rfl, rfl, rfl⟩; simp only [List.replicate, EscLocal.run, List.foldl_nil]; omega
    | succ n ih =>
      intro m hd a
      have ha : a = EscLocal.run (EscLocal.fsByte m name).1 (List.replicate n (.fsByte name)) := rfl
      by_cases hlt : m.held + m.leaked < m.limit
      · rw [free m hd hlt] at ha
        obtain ⟨h1, h2, h3, h4⟩ := ih { m with tried := yearLocal y :: m.tried, leaked := m.leaked + 1 } hd
        rw [ha]
        refine ⟨?_, h2, h3, h4⟩
        rw [h1]
        simp only
        omega
      · rw [full m hd (by omega)] at ha
        obtain ⟨h1, h2, h3, h4⟩ := ih { m with tried := yearLocal y :: m.tried } hd
        rw [ha]
        refine ⟨?_, h2, h3, h4⟩
        rw [h1]
        simp only
        omega
  obtain ⟨h1, h2, h3, h4⟩ := key n m hd
  have hd' : after.node (yearLocal y) = some (.file data) := by
    show (EscLocal.run m (List.replicate n (.fsByte name))).node _ = _
    rw [h4]; exact hd
  have h1 : after.leaked = _ := h1
  have h2 : after.held = _ := h2
  have h3 : after.limit = _ := h3
  refine ⟨h1, h2, ?_, ?_, ?_⟩
  · intro hle
    have := full after hd' (by omega)
    exact ⟨⟨_, by rw [this]⟩, by rw [fsMust, this]⟩
  · intro hlt
    rw [free after hd' (by omega)]
  · intro hlt
    rw [free (collect after) hd' (by simp only [collect]; omega)]

/-- With a bound of 1024 files and three of them in use, 1021 calls work and the next one fails. -/
example : let m : Machine := ⟨fun _ => some (.file [1]), 1024, 3, 0, []⟩
    let name := "/data/astro/astro-1999.json".toList
    escFind name = some (.file 1999) ∧ m.node (yearLocal 1999) = some (.file [1]) ∧
    (EscLocal.fsByte (EscLocal.run m (List.replicate 1020 (.fsByte name))) name).2 = ([1], none) ∧
    (fsMust (EscLocal.run m (List.replicate 1021 (.fsByte name))) name).2 = none := by
  intro m name
  have h : escFind name = some (.file 1999) := by decide +kernel
  exact ⟨h, rfl, (c70_leak m name 1999 [1] h rfl 1020).2.2.2.1 (by decide), ((c70_leak m name 1999 [1] h rfl 1021).2.2.1 (by decide)).2⟩

/-- A file got from `Open` counts until its caller closes it: opening without closing fails when no file is left, each close gives one
back, and opening and closing in turn can go on for ever. -/
theorem c70_held (m : Machine) (name : List Char) (y : Int) (data : List UInt8) (hn : escFind name = some (.file y))
    (hd : m.node (yearLocal y) = some (.file data)) (n : Nat) :
    let after := EscLocal.run m (List.replicate n (.openFile name))
    after.held = max m.held (min (m.held + n) (m.limit - m.leaked)) ∧ after.leaked = m.leaked ∧
    (m.limit ≤ m.held + m.leaked + n → ∃ e, (EscLocal.openFile after name).2 = .inl e) ∧
    (m.held + m.leaked + n < m.limit → (EscLocal.openFile after name).2 = .inr (.file data)) ∧
    (∀ k, (EscLocal.run after (List.replicate k .close)).held = after.held - k) ∧
    (m.held + m.leaked < m.limit → 0 < n → (EscLocal.openFile (EscLocal.run after [.close]) name).2 = .inr (.file data)) ∧
    (m.held + m.leaked < m.limit →
      (EscLocal.openFile (EscLocal.run m (List.replicate n [.openFile name, .close]).flatten) name).2 = .inr (.file data)) := by
  intro after
  obtain ⟨hl, -, -⟩ := local_file hn
  have full : ∀ m : Machine, m.node (yearLocal y) = some (.file data) → m.limit ≤ m.held + m.leaked →
      EscLocal.openFile m name = ({ m with tried := yearLocal y :: m.tried }, .inl (.other "too many open files")) := by
    intro m hd hle
    simp only [EscLocal.openFile, localOpen, hl, osOpen, hd]
    rw [if_pos hle]
  have free : ∀ m : Machine, m.node (yearLocal y) = some (.file data) → m.held + m.leaked < m.limit →
      EscLocal.openFile m name = ({ m with tried := yearLocal y :: m.tried, held := m.held + 1 }, .inr (.file data)) := by
    intro m hd hlt
    simp only [EscLocal.openFile, localOpen, hl, osOpen, hd]
    rw [if_neg (by omega)]
  have key : ∀ (n : Nat) (m : Machine), m.node (yearLocal y) = some (.file data) →
      let a := EscLocal.run m (List.replicate n (.openFile name))
      a.held = max m.held (min (m.held + n) (m.limit - m.leaked)) ∧ a.leaked = m.leaked ∧ a.limit = m.limit ∧ a.node = m.node := by
    intro n
    induction n with
    | zero => intro m hd; refine ⟨?_, rfl, rfl, rfl⟩; simp only [List.replicate, EscLocal.run, List.foldl_nil]; omega
    | succ n ih =>
      intro m hd a
      have ha : a = EscLocal.run (EscLocal.openFile m name).1 (List.replicate n (.openFile name)) := rfl
      by_cases hlt : m.held + m.leaked < m.limit
      · rw [free m hd hlt] at ha
        obtain ⟨h1, h2, h3, h4⟩ := ih { m with tried := yearLocal y :: m.tried, held := m.held + 1 } hd
        rw [ha]
        refine ⟨?_, h2, h3, h4⟩
        rw [h1]
        simp only
        omega
      · rw [full m hd (by omega)] at ha
        obtain ⟨h1, h2, h3, h4⟩ := ih { m with tried := yearLocal y :: m.tried } hd
        rw [ha]
        refine ⟨?_, h2, h3, h4⟩
        rw [h1]
        simp only
        omega
  have closes : ∀ (k : Nat) (m : Machine), (EscLocal.run m (List.replicate k .close)).held = m.held - k := by
    intro k
    induction k with
    | zero => intro m; rfl
    | succ k ih =>
      intro m
      have : EscLocal.run m (List.replicate (k + 1) .close) = EscLocal.run { m with held := m.held - 1 } (List.replicate k .close) := rfl
      rw [this, ih]
      simp only
      omega
  have turns : ∀ (n : Nat) (m : Machine), m.node (yearLocal y) = some (.file data) → m.held + m.leaked < m.limit →
      (EscLocal.openFile (EscLocal.run m (List.replicate n [EscLocal.Op.openFile name, .close]).flatten) name).2 = .inr (.file data) := by
    intro n
    induction n with
    | zero => intro m hd hlt; show (EscLocal.openFile m name).2 = _; rw [free m hd hlt]
    | succ n ih =>
      intro m hd hlt
      have : EscLocal.run m (List.replicate (n + 1) [EscLocal.Op.openFile name, .close]).flatten =
          EscLocal.run (EscLocal.step (EscLocal.openFile m name).1 .close)
            (List.replicate n [EscLocal.Op.openFile name, .close]).flatten := rfl
      rw [this, free m hd hlt]
      exact ih _ hd hlt
  obtain ⟨h1, h2, h3, h4⟩ := key n m hd
  have hd' : after.node (yearLocal y) = some (.file data) := by
    show (EscLocal.run m (List.replicate n (.openFile name))).node _ = _
    rw [h4]; exact hd
  change after.held = _ at h1
  change after.leaked = _ at h2
  change after.limit = _ at h3
  refine ⟨h1, h2, fun hle => ?_, fun hlt => ?_, fun k => closes k after, fun hlt hpos => ?_, turns n m hd⟩
  · rw [full after hd' (by omega)]; exact ⟨_, rfl⟩
  · rw [free after hd' (by omega)]
  · show (EscLocal.openFile (EscLocal.step after .close) name).2 = _
    rw [free (EscLocal.step after .close) hd' (by simp only [EscLocal.step]; omega)]

-- A process with room for three files, one of them taken: two more can be opened, a third only after a close.
example : let name := "/data/astro/astro-1999.json".toList
    let m : Machine := { node := fun _ => some (.file [1]), limit := 3, held := 1 }
    escFind name = some (.file 1999) ∧ m.node (yearLocal 1999) = some (.file [1]) ∧
    (EscLocal.run m (List.replicate 5 (.openFile name))).held = 3 ∧
    (EscLocal.openFile (EscLocal.run (EscLocal.run m (List.replicate 5 (.openFile name))) [.close]) name).2 = .inr (.file [1]) := by
  intro name m
  have h : escFind name = some (.file 1999) := by decide +kernel
  exact ⟨h, rfl, (c70_held m name 1999 [1] h rfl 5).1, (c70_held m name 1999 [1] h rfl 5).2.2.2.2.2.1 (by decide) (by decide)⟩

/-- A data file's name without a directory. -/
def bareFile (y : Int) : List Char := "astro-".toList ++ (toString y).toList ++ ".json".toList

theorem bare_all : (List.range 141).all (fun i =>
    decide (escFind ("/data/astro".toList ++ bareFile (1900 + (i : Int))) = none) &&
    decide (escFind ("/data/astro".toList ++ '/' :: bareFile (1900 + (i : Int))) = some (.file (1900 + (i : Int))))) = true := by
  decide +kernel

theorem bare_found (y : Int) (h1 : 1900 ≤ y) (h2 : y ≤ 2040) :
    escFind ("/data/astro".toList ++ bareFile y) = none ∧ escFind ("/data/astro".toList ++ '/' :: bareFile y) = some (.file y) := by
  have hy := List.all_eq_true.1 bare_all (y - 1900).toNat (List.mem_range.2 (by omega))
  rw [show (1900 : Int) + ((y - 1900).toNat : Int) = y by omega, Bool.and_eq_true] at hy
  exact ⟨of_decide_eq_true hy.1, of_decide_eq_true hy.2⟩

/-- `Dir(true, dir).Open(name)` knows only the joined text: no slash is put between, so the names of the data files are not found in their
directory unless they begin with one. -/
theorem c70_join (m : Machine) :
    (∀ dir name, EscLocal.openIn m dir name = EscLocal.openFile m (dir ++ name)) ∧
    ∀ y : Int, 1900 ≤ y → y ≤ 2040 →
      EscLocal.openIn m "/data/astro".toList (bareFile y) = (m, .inl .notExist) ∧
      ∀ data, m.node (yearLocal y) = some (.file data) → m.held + m.leaked < m.limit →
        (EscLocal.openIn m "/data/astro".toList ('/' :: bareFile y)).2 = .inr (.file data) := by
  have hj : ∀ dir name, EscLocal.openIn m dir name = EscLocal.openFile m (dir ++ name) := fun _ _ => rfl
  refine ⟨hj, fun y h1 h2 => ?_⟩
  obtain ⟨ha, hb⟩ := bare_found y h1 h2
  rw [hj, hj]
  generalize "/data/astro".toList ++ bareFile y = s at *
  generalize "/data/astro".toList ++ '/' :: bareFile y = t at *
  exact ⟨(c70_missing m s ha).2.1, fun data hd hlt => (c70_held m t y data hb hd 0).2.2.2.1 hlt⟩

-- The first year, on a machine that has its file.
example : let m : Machine := { node := fun _ => some (.file [7]), limit := 1 }
    EscLocal.openIn m "/data/astro".toList "astro-1900.json".toList = (m, .inl .notExist) ∧
    (EscLocal.openIn m "/data/astro".toList "/astro-1900.json".toList).2 = .inr (.file [7]) := by
  intro m
  have h := (c70_join m).2 1900 (by decide) (by decide)
  exact ⟨h.1, h.2 [7] rfl (by decide)⟩

end Verif.Props
