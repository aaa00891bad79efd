import Verif.Model.EscFS
import Verif.Lemmas.EscData
import Verif.Props.Esc
import Verif.Props.Path
/-
C60: the compressed texts of data.go hold the data of the table.
-/
set_option autoImplicit false

namespace Verif.Props
open Verif.Go Verif.Model Verif.Model.Esc Verif.Spec Verif.Spec.Esc Verif.Lemmas Verif.Lemmas.AstroText

theorem forall₂_mem {α β : Type} {R : α → β → Prop} : ∀ {l : List α} {l' : List β}, List.Forall₂ R l l' → ∀ a ∈ l, ∃ b ∈ l', R a b
  | _, _, .nil, _, h => by cases h
  | _, _, .cons hab t, a, h => by
    rcases List.mem_cons.1 h with rfl | h
    · exact ⟨_, List.mem_cons_self, hab⟩
    · obtain ⟨b, hb, hr⟩ := forall₂_mem t a h
      exact ⟨b, List.mem_cons_of_mem _ hb, hr⟩

/-- C60: every compressed text decodes (base64, gzip with its checksum and length, deflate) to the text of the moons of its year. -/
theorem c60_decoded (year : Int) (d : EscData) (h : (year, d) ∈ escFiles) :
    ∃ rows, (year, rows) ∈ embeddedTable ∧
      Gzip.decode (asciiBytes d.compressed) = some (asciiBytes (fileText rows)) := by
  obtain ⟨⟨y, rows⟩, hb, h1, h2, -⟩ := forall₂_mem files_decode _ h
  simp only at h1 h2
  subst h1
  exact ⟨rows, hb, h2.1⟩

/-- C60: the recorded size of a file is the length of its decoded contents. -/
theorem c60_size (year : Int) (d : EscData) (h : (year, d) ∈ escFiles) :
    ∃ data, Gzip.decode (asciiBytes d.compressed) = some data ∧ d.size = data.length ∧ 0 < d.size := by
  obtain ⟨⟨y, rows⟩, hb, -, ⟨h2, h3⟩, h4⟩ := forall₂_mem files_decode _ h
  simp only at h2 h3 h4
  exact ⟨_, h2, by omega, h4⟩

theorem forall₂_years : ∀ {l : List (Int × EscData)} {l' : List (Int × Option (List Nat))},
    List.Forall₂ (fun e t => e.1 = t.1 ∧ Decodes e.2.compressed t.2 e.2.size.toNat ∧ 0 < e.2.size) l l' → l.map (·.1) = l'.map (·.1)
  | _, _, .nil => rfl
  | _, _, .cons h t => by rw [List.map_cons, List.map_cons, h.1, forall₂_years t]

/-- C60: there is one compressed text for each year from 1900 to 2040. -/
theorem c60_years : escFiles.map (·.1) = yearsFrom 1900 2040 := by rw [forall₂_years files_decode, table_years]

theorem lookup_file {y : Int} (h1 : 1900 ≤ y) (h2 : y ≤ 2040) : ∃ d, escFiles.lookup y = some d ∧ (y, d) ∈ escFiles := by
  have hy : y ∈ escFiles.map (·.1) := by
    rw [c60_years]
    unfold yearsFrom
    simp only [List.mem_map, List.mem_range]
    exact ⟨(y - 1900).toNat, by omega, by omega⟩
  generalize escFiles = l at hy
  induction l with
  | nil => cases hy
  | cons e l ih =>
    obtain ⟨k, d⟩ := e
    by_cases hk : y = k
    · subst hk
      exact ⟨d, by simp, List.mem_cons_self⟩
    · have : y ∈ l.map (·.1) := by
        rcases List.mem_cons.1 hy with h | h
        · exact absurd h hk
        · exact h
      obtain ⟨d', h3, h4⟩ := ih this
      refine ⟨d', ?_, List.mem_cons_of_mem _ h4⟩
      rw [List.lookup_cons, show (y == k) = false by simpa using hk]
      exact h3

/-- C60: the compressed text of 2015. -/
example : ∃ d data, (2015, d) ∈ escFiles ∧ Gzip.decode (asciiBytes d.compressed) = some data ∧ d.size = data.length ∧
    ∃ rows, (2015, rows) ∈ embeddedTable ∧ data = asciiBytes (fileText rows) := by
  obtain ⟨d, -, hd⟩ := lookup_file (y := 2015) (by decide) (by decide)
  obtain ⟨data, h1, h2, -⟩ := c60_size _ _ hd
  obtain ⟨rows, h3, h4⟩ := c60_decoded _ _ hd
  rw [h1] at h4
  exact ⟨d, data, hd, h1, h2, rows, h3, Option.some.inj h4⟩

theorem env_file {arg : Nat → String} {i : Nat} {y : Int} (h : escFind (arg i).toList = some (.file y)) (h1 : 1900 ≤ y) (h2 : y ≤ 2040) :
    ∃ d, (y, d) ∈ escFiles ∧ (embeddedEnv arg).escData ((embeddedEnv arg).key i) = some (decoded d) := by
  obtain ⟨d, hd, hm⟩ := lookup_file h1 h2
  refine ⟨d, hm, ?_⟩
  unfold escFind at h
  simp only [embeddedEnv, Env.key, String.toList_ofList, h, hd, Option.map_some, Option.getD_some]

/-- C60: however many calls of `FSByte` run at the same time, each one that asks for the file of a year by any name that leads
there and has returned got the text of that year's moons and no error. -/
theorem c60_read (arg : Nat → String) (sched : List Nat) (i : Nat) (y : Int) (data : List UInt8) (err : Option Err)
    (hy : 1900 ≤ y ∧ y ≤ 2040) (hn : escFind (arg i).toList = some (.file y))
    (h : Returned (run (embeddedEnv arg) .init sched) i data err) :
    err = none ∧ ∃ rows, (y, rows) ∈ embeddedTable ∧ data = (asciiBytes (fileText rows)).map UInt8.ofNat := by
  obtain ⟨d, hm, he⟩ := env_file hn hy.1 hy.2
  obtain ⟨rows, hr, hdec⟩ := c60_decoded y d hm
  obtain ⟨_, _, _, hs⟩ := c60_size y d hm
  have hde : decoded d = { size := d.size, newReader := none, readAll := ((asciiBytes (fileText rows)).map UInt8.ofNat, none) } := by
    unfold decoded
    unfold asciiBytes at hdec ⊢
    rw [hdec]
  have hok : outErr (decoded d) = none := by
    rw [hde]; unfold outErr; split_ifs <;> rfl
  obtain ⟨h1, h2⟩ := c38_contents (embeddedEnv arg) sched i _ data err he hok h
  refine ⟨h2, rows, hr, ?_⟩
  rw [h1, hde]
  unfold outData
  rw [if_neg (by simp only; omega)]

/-- A single call on a file that decodes returns after eleven steps. -/
theorem alone (env : Env) (e : EscFile) (he : env.escData (env.key 0) = some e) (hs : e.size ≠ 0) (hn : e.newReader = none)
    (hr : e.readAll.2 = none) : Returned (run env .init (List.replicate 11 0)) 0 e.readAll.1 none := by
  unfold Returned
  simp [run, Esc.step, he, hs, hn, hr, State.goto, State.setCall, State.setFile, State.init, List.replicate]

/-- The hypotheses of `c60_read` are met: `..` in a name, the year 1902 and a call that has returned. -/
example : ∃ data, escFind "/data/x/../astro//astro-1902.json".toList = some (.file 1902) ∧
    Returned (run (embeddedEnv fun _ => "/data/x/../astro//astro-1902.json") .init (List.replicate 11 0)) 0 data none := by
  have hf : escFind "/data/x/../astro//astro-1902.json".toList = some (.file 1902) := by
    have := (c59_files 1902).1
    rw [if_pos (by decide)] at this
    have hp : pathClean "/data/x/../astro//astro-1902.json".toList = pathClean (astroPath 1902) := by decide +kernel
    unfold escFind at this ⊢
    rw [hp]
    exact this
  obtain ⟨d, hm, he⟩ := env_file (arg := fun _ => "/data/x/../astro//astro-1902.json") (i := 0) hf (by decide) (by decide)
  obtain ⟨rows, -, hdec⟩ := c60_decoded 1902 d hm
  obtain ⟨-, -, -, hs⟩ := c60_size 1902 d hm
  have hde : decoded d = { size := d.size, newReader := none, readAll := ((asciiBytes (fileText rows)).map UInt8.ofNat, none) } := by
    unfold decoded
    unfold asciiBytes at hdec ⊢
    rw [hdec]
  exact ⟨_, hf, alone _ _ he (by rw [hde]; simp only; omega) (by rw [hde]) (by rw [hde])⟩

/-- C60: the same for the name `GetAstroMoons` makes (astro_moon.go:52-57), for any year. -/
theorem c60_astro (arg : Nat → String) (sched : List Nat) (i : Nat) (y : Int) (data : List UInt8) (err : Option Err)
    (hn : arg i = String.ofList (astroPath y)) (h : Returned (run (embeddedEnv arg) .init sched) i data err) :
    (err = none ∧ ∃ rows, (y, rows) ∈ embeddedTable ∧ data = (asciiBytes (fileText rows)).map UInt8.ofNat) ∨
    (err = some .notExist ∧ data = [] ∧ ¬ (1900 ≤ y ∧ y ≤ 2040)) := by
  have hf := (c59_files y).1
  by_cases hy : 1900 ≤ y ∧ y ≤ 2040
  · rw [if_pos hy] at hf
    exact .inl (c60_read arg sched i y data err hy (by rw [hn, String.toList_ofList]; exact hf) h)
  · rw [if_neg hy] at hf
    have he : (embeddedEnv arg).escData ((embeddedEnv arg).key i) = none := by
      unfold escFind at hf
      simp only [embeddedEnv, Env.key, String.toList_ofList, hn, hf, Option.map_none]
    obtain ⟨h1, h2⟩ := c38_missing _ sched i data err he h
    exact .inr ⟨h2, h1, hy⟩

/-- The files of the first two years and the bytes of a text. -/
example : (escFiles.take 3).map (fun e => (e.1, e.2.size, e.2.modtime)) = [(1900, 116, 1439039563), (1901, 116, 1439039563), (1902, 4916, 1439039565)] ∧
    asciiBytes (rowText 1902_01_01_16_08_36_0_3) = asciiBytes
      "{\"timestamp\":-2145858684,\"dateTimeISO\":\"1902-01-01T16:08:36+00:00\",\"code\":3,\"name\":\"last quarter\"}" := by
  constructor
  · decide
  · decide +kernel

end Verif.Props
