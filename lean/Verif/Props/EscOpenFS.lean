import Verif.Model.EscOpenFS
import Verif.Props.EscOpen
import Verif.Props.EscData
/-
C64 for the files of data.go.
-/
set_option autoImplicit false

namespace Verif.Props
open Verif.Go Verif.Model Verif.Model.EscOpen Verif.Spec Verif.Spec.EscOpen Verif.Lemmas.AstroText
open Verif.Model.Esc (EscFile Err)

theorem open_lookup (name : String) :
    openEnv.escData (openEnv.clean name) = (escFind name.toList).map fun
      | .file year => ((escFiles.lookup year).map decoded).getD directory
      | .dir => directory := by
  simp only [openEnv, embeddedEnv, String.toList_ofList, escFind]
  rfl

theorem open_isDir (name : String) : openEnv.isDir (openEnv.clean name) = (escFind name.toList == some .dir) := by
  simp only [openEnv, embeddedEnv, String.toList_ofList, escFind]

/-- The file of a year in the environment. -/
theorem open_file {name : String} {y : Int} (hn : escFind name.toList = some (.file y)) (h1 : 1900 ≤ y) (h2 : y ≤ 2040) :
    ∃ rows e, (y, rows) ∈ embeddedTable ∧ openEnv.escData (openEnv.clean name) = some e ∧
      decode e = ((asciiBytes (fileText rows)).map UInt8.ofNat, none) ∧ e.size = (fileText rows).length := by
  obtain ⟨d, hd, hm⟩ := lookup_file h1 h2
  obtain ⟨rows, hr, hdec⟩ := c60_decoded y d hm
  obtain ⟨data, hdec', hs, hs'⟩ := c60_size y d hm
  rw [hdec] at hdec'
  cases hdec'
  refine ⟨rows, decoded d, hr, by rw [open_lookup, hn]; simp [hd], ?_, ?_⟩
  · unfold decoded
    unfold asciiBytes at hdec ⊢
    rw [hdec]
    unfold decode
    simp only
    rw [if_neg (by omega)]
  · have : (decoded d).size = d.size := by unfold decoded; split <;> rfl
    rw [this, hs]
    simp [asciiBytes, String.length_toList]

/-- C64: after any history without stores, opening the file of a year by any name that leads to it succeeds. Reads from the
handle, in whatever portions, give the text of that year's moons from its beginning, and the end of the file exactly when it has
all been given. `Stat` gives the number of bytes of the text, no directory, and mode 0. -/
theorem c64_embedded (ops : List Op) (hq : ∀ o ∈ ops, isStore o = false) (name : String) (y : Int)
    (hy : 1900 ≤ y ∧ y ≤ 2040) (hn : escFind name.toList = some (.file y)) :
    let r := step openEnv (run openEnv {} ops).1 (.openFile name)
    ∃ rows h, (y, rows) ∈ embeddedTable ∧ r.2 = .handle h ∧
      (∀ ns : List Nat, ((run openEnv r.1 (ns.map (.read h))).2.map bytesOf).flatten =
          ((asciiBytes (fileText rows)).map UInt8.ofNat).take ns.sum ∧
        ∀ i < ns.length, ((run openEnv r.1 (ns.map (.read h))).2[i]? = some .eof ↔
          (fileText rows).length ≤ (ns.take i).sum)) ∧
      ∃ i, (step openEnv r.1 (.stat h)).2 = .info i ∧ i.size = (fileText rows).length ∧ i.isDir = false ∧ i.mode = 0 := by
  intro r
  obtain ⟨rows, e, hr, he, hdec, hs⟩ := open_file hn hy.1 hy.2
  obtain ⟨h, h1, h2, h3, h4⟩ := c64_open openEnv ops hq name e he (by rw [hdec])
  refine ⟨rows, h, hr, h1, ?_, _, h4, hs, ?_, rfl⟩
  · intro ns
    have h := c64_read openEnv r.1 h (openEnv.clean name) 0 h2 ns
    have h3 : (r.1.file (openEnv.clean name)).data = (asciiBytes (fileText rows)).map UInt8.ofNat := h3.trans (by rw [hdec])
    rw [h3] at h
    simpa [asciiBytes, String.length_toList] using h
  · simp only [open_isDir, hn]
    rfl

/-- C64: the same for `FSByte`, `FSString` and their `Must` variants: all give the whole text, and none of them panics. -/
theorem c64_whole (ops : List Op) (hq : ∀ o ∈ ops, isStore o = false) (name : String) (y : Int)
    (hy : 1900 ≤ y ∧ y ≤ 2040) (hn : escFind name.toList = some (.file y)) :
    let s := (run openEnv {} ops).1
    ∃ rows j, (y, rows) ∈ embeddedTable ∧
      (step openEnv s (.fsByte name)).2 = .slice j ((asciiBytes (fileText rows)).map UInt8.ofNat) ∧
      (step openEnv s (.fsMustByte name)).2 = .slice j ((asciiBytes (fileText rows)).map UInt8.ofNat) ∧
      (step openEnv s (.fsString name)).2 = .bytes ((asciiBytes (fileText rows)).map UInt8.ofNat) ∧
      (step openEnv s (.fsMustString name)).2 = .bytes ((asciiBytes (fileText rows)).map UInt8.ofNat) := by
  intro s
  obtain ⟨rows, e, hr, he, hdec, hs⟩ := open_file hn hy.1 hy.2
  obtain ⟨h, h1, h2, h3, h4⟩ := c64_open openEnv ops hq name e he (by rw [hdec])
  have hp : (prepare openEnv s name).2 = .inr (openEnv.clean name) := by
    unfold prepare
    simp only [he, hdec]
    split <;> rfl
  have hf : ((prepare openEnv s name).1.file (openEnv.clean name)).data = (asciiBytes (fileText rows)).map UInt8.ofNat := by
    rw [← (openFile_state openEnv s name).1]
    exact h3.trans (by rw [hdec])
  obtain ⟨-, h1, -, h3, -, -, h6, h7⟩ := (asked_result openEnv s name).2 _ hp
  rw [hf] at h1 h3 h6 h7
  exact ⟨rows, _, hr, h1, h6, h3, h7⟩

/-- C64: the file of 2015 under its plain name, after another one was opened and read. -/
example : let s := (run openEnv {} [.openFile "/data/astro/astro-2014.json", .read 0 100]).1
    ∃ rows j, (2015, rows) ∈ embeddedTable ∧
      (step openEnv s (.fsByte "/data/astro/astro-2015.json")).2 = .slice j ((asciiBytes (fileText rows)).map UInt8.ofNat) := by
  obtain ⟨rows, j, h1, h2, -⟩ := c64_whole [.openFile "/data/astro/astro-2014.json", .read 0 100] (by simp [isStore])
    "/data/astro/astro-2015.json" 2015 (by decide) (by decide +kernel)
  exact ⟨rows, j, h1, h2⟩

/-- C64: the directories can be opened too: their contents are empty, reading gives the end of the file at once, `Stat` says
that they are directories, but with mode 0, in which the bit `os.ModeDir` is missing, and size 0. -/
theorem c64_directory (ops : List Op) (hq : ∀ o ∈ ops, isStore o = false) (name : String)
    (hn : escFind name.toList = some .dir) :
    let r := step openEnv (run openEnv {} ops).1 (.openFile name)
    ∃ h, r.2 = .handle h ∧ (∀ n, (step openEnv r.1 (.read h n)).2 = .eof) ∧
      ∃ i, (step openEnv r.1 (.stat h)).2 = .info i ∧ i.size = 0 ∧ i.isDir = true ∧ i.mode = 0 := by
  intro r
  have he : openEnv.escData (openEnv.clean name) = some directory := by rw [open_lookup, hn]; rfl
  obtain ⟨h, h1, h2, h3, h4⟩ := c64_open openEnv ops hq name _ he rfl
  refine ⟨h, h1, ?_, _, h4, rfl, ?_, rfl⟩
  · intro n
    have h3 : (r.1.file (openEnv.clean name)).data = [] := h3
    rw [read_step h2, h3]
    rfl
  · simp only [open_isDir, hn]
    rfl

/-- C64: a name that leads to no entry gives the error `os.ErrNotExist` and changes nothing, whatever came before. -/
theorem c64_missing (s : State) (name : String) (hn : escFind name.toList = none) :
    step openEnv s (.openFile name) = (s, .error .notExist) ∧ step openEnv s (.fsByte name) = (s, .error .notExist) ∧
    step openEnv s (.fsString name) = (s, .error .notExist) ∧ step openEnv s (.fsMustByte name) = (s, .panics) ∧
    step openEnv s (.fsMustString name) = (s, .panics) := by
  have hp : prepare openEnv s name = (s, .inl .notExist) := by
    unfold prepare
    have he : openEnv.escData (openEnv.clean name) = none := by rw [open_lookup, hn]; rfl
    simp only [he]
  simp only [step, openFile, fsByte, fsString, hp]
  exact ⟨trivial, trivial, trivial, rfl, rfl⟩

/-- C64: a year without a file. -/
example : escFind "/data/astro/astro-2041.json".toList = none := by decide +kernel

theorem find_2015 : escFind "/data/astro/astro-2015.json/x/..".toList = some (.file 2015) := by
  have := (c59_files 2015).1
  rw [if_pos (by decide)] at this
  have hp : pathClean "/data/astro/astro-2015.json/x/..".toList = pathClean (astroPath 2015) := by decide +kernel
  unfold escFind at this ⊢
  rw [hp]
  exact this

/-- The hypotheses of `c64_embedded`, `c64_whole` and `c64_name` are met: after a caller has used this spelling, the file of
2015 is called `..` for everyone. -/
example : ∃ i, (step openEnv (run openEnv {} [.fsByte "/data/astro/astro-2015.json/x/..",
      .openFile "/data/astro/astro-2015.json"]).1 (.stat 0)).2 = .info i ∧ i.name = ".." := by
  obtain ⟨rows, e, -, he, hdec, -⟩ := open_file find_2015 (by decide) (by decide)
  have hk : openEnv.clean "/data/astro/astro-2015.json" = openEnv.clean "/data/astro/astro-2015.json/x/.." := by
    simp only [openEnv, embeddedEnv]
    exact congrArg String.ofList (by decide +kernel)
  have hb : openEnv.base "/data/astro/astro-2015.json/x/.." = ".." := by
    simp only [openEnv, embeddedEnv]
    exact congrArg String.ofList (show _ = ['.', '.'] by decide +kernel)
  obtain ⟨i, h1, h2⟩ := c64_name openEnv _ _ e he hk
  exact ⟨i, h1, h2.trans hb⟩

/-- The hypothesis of `c64_directory`. -/
example : escFind "/data/./astro/".toList = some .dir := by
  have hp : pathClean "/data/./astro/".toList = "/data/astro".toList := by decide +kernel
  unfold escFind
  rw [hp]
  decide +kernel

end Verif.Props
