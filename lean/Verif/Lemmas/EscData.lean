import Verif.Lemmas.EscData1
import Verif.Lemmas.EscData2
import Verif.Lemmas.EscData3
import Verif.Lemmas.EscData4
import Verif.Lemmas.EscData5
import Verif.Lemmas.EscData6
import Verif.Lemmas.EscData7
import Verif.Lemmas.EscData8
import Verif.Lemmas.EscData9
import Verif.Lemmas.EscData10
import Verif.Lemmas.EscData11
import Verif.Lemmas.EscData12
/-
All files of data.go at once.
-/
set_option autoImplicit false

namespace Verif.Lemmas.AstroText
open Verif.Model

theorem files_decode : List.Forall₂ (fun (e : Int × EscData) (t : Int × Option (List Nat)) =>
    e.1 = t.1 ∧ Decodes e.2.compressed t.2 e.2.size.toNat ∧ 0 < e.2.size) escFiles embeddedTable :=
  .cons ⟨rfl, noData_decodes, by decide⟩ <|
  .cons ⟨rfl, noData_decodes, by decide⟩ <|
  .cons ⟨rfl, compressed1902_decodes, by decide⟩ <|
  .cons ⟨rfl, compressed1903_decodes, by decide⟩ <|
  .cons ⟨rfl, compressed1904_decodes, by decide⟩ <|
  .cons ⟨rfl, compressed1905_decodes, by decide⟩ <|
  .cons ⟨rfl, compressed1906_decodes, by decide⟩ <|
  .cons ⟨rfl, compressed1907_decodes, by decide⟩ <|
  .cons ⟨rfl, compressed1908_decodes, by decide⟩ <|
  .cons ⟨rfl, compressed1909_decodes, by decide⟩ <|
  .cons ⟨rfl, compressed1910_decodes, by decide⟩ <|
  .cons ⟨rfl, compressed1911_decodes, by decide⟩ <|
  .cons ⟨rfl, compressed1912_decodes, by decide⟩ <|
  .cons ⟨rfl, compressed1913_decodes, by decide⟩ <|
  .cons ⟨rfl, compressed1914_decodes, by decide⟩ <|
  .cons ⟨rfl, compressed1915_decodes, by decide⟩ <|
  .cons ⟨rfl, compressed1916_decodes, by decide⟩ <|
  .cons ⟨rfl, compressed1917_decodes, by decide⟩ <|
  .cons ⟨rfl, compressed1918_decodes, by decide⟩ <|
  .cons ⟨rfl, compressed1919_decodes, by decide⟩ <|
  .cons ⟨rfl, compressed1920_decodes, by decide⟩ <|
  .cons ⟨rfl, compressed1921_decodes, by decide⟩ <|
  .cons ⟨rfl, compressed1922_decodes, by decide⟩ <|
  .cons ⟨rfl, compressed1923_decodes, by decide⟩ <|
  .cons ⟨rfl, compressed1924_decodes, by decide⟩ <|
  .cons ⟨rfl, compressed1925_decodes, by decide⟩ <|
  .cons ⟨rfl, compressed1926_decodes, by decide⟩ <|
  .cons ⟨rfl, compressed1927_decodes, by decide⟩ <|
  .cons ⟨rfl, compressed1928_decodes, by decide⟩ <|
  .cons ⟨rfl, compressed1929_decodes, by decide⟩ <|
  .cons ⟨rfl, compressed1930_decodes, by decide⟩ <|
  .cons ⟨rfl, compressed1931_decodes, by decide⟩ <|
  .cons ⟨rfl, compressed1932_decodes, by decide⟩ <|
  .cons ⟨rfl, compressed1933_decodes, by decide⟩ <|
  .cons ⟨rfl, compressed1934_decodes, by decide⟩ <|
  .cons ⟨rfl, compressed1935_decodes, by decide⟩ <|
  .cons ⟨rfl, compressed1936_decodes, by decide⟩ <|
  .cons ⟨rfl, compressed1937_decodes, by decide⟩ <|
  .cons ⟨rfl, compressed1938_decodes, by decide⟩ <|
  .cons ⟨rfl, compressed1939_decodes, by decide⟩ <|
  .cons ⟨rfl, compressed1940_decodes, by decide⟩ <|
  .cons ⟨rfl, compressed1941_decodes, by decide⟩ <|
  .cons ⟨rfl, compressed1942_decodes, by decide⟩ <|
  .cons ⟨rfl, compressed1943_decodes, by decide⟩ <|
  .cons ⟨rfl, compressed1944_decodes, by decide⟩ <|
  .cons ⟨rfl, compressed1945_decodes, by decide⟩ <|
  .cons ⟨rfl, compressed1946_decodes, by decide⟩ <|
  .cons ⟨rfl, compressed1947_decodes, by decide⟩ <|
  .cons ⟨rfl, compressed1948_decodes, by decide⟩ <|
  .cons ⟨rfl, compressed1949_decodes, by decide⟩ <|
  .cons ⟨rfl, compressed1950_decodes, by decide⟩ <|
  .cons ⟨rfl, compressed1951_decodes, by decide⟩ <|
  .cons ⟨rfl, compressed1952_decodes, by decide⟩ <|
  .cons ⟨rfl, compressed1953_decodes, by decide⟩ <|
  .cons ⟨rfl, compressed1954_decodes, by decide⟩ <|
  .cons ⟨rfl, compressed1955_decodes, by decide⟩ <|
  .cons ⟨rfl, compressed1956_decodes, by decide⟩ <|
  .cons ⟨rfl, compressed1957_decodes, by decide⟩ <|
  .cons ⟨rfl, compressed1958_decodes, by decide⟩ <|
  .cons ⟨rfl, compressed1959_decodes, by decide⟩ <|
  .cons ⟨rfl, compressed1960_decodes, by decide⟩ <|
  .cons ⟨rfl, compressed1961_decodes, by decide⟩ <|
  .cons ⟨rfl, compressed1962_decodes, by decide⟩ <|
  .cons ⟨rfl, compressed1963_decodes, by decide⟩ <|
  .cons ⟨rfl, compressed1964_decodes, by decide⟩ <|
  .cons ⟨rfl, compressed1965_decodes, by decide⟩ <|
  .cons ⟨rfl, compressed1966_decodes, by decide⟩ <|
  .cons ⟨rfl, compressed1967_decodes, by decide⟩ <|
  .cons ⟨rfl, compressed1968_decodes, by decide⟩ <|
  .cons ⟨rfl, compressed1969_decodes, by decide⟩ <|
  .cons ⟨rfl, noData_decodes, by decide⟩ <|
  .cons ⟨rfl, compressed1971_decodes, by decide⟩ <|
  .cons ⟨rfl, compressed1972_decodes, by decide⟩ <|
  .cons ⟨rfl, compressed1973_decodes, by decide⟩ <|
  .cons ⟨rfl, compressed1974_decodes, by decide⟩ <|
  .cons ⟨rfl, compressed1975_decodes, by decide⟩ <|
  .cons ⟨rfl, compressed1976_decodes, by decide⟩ <|
  .cons ⟨rfl, compressed1977_decodes, by decide⟩ <|
  .cons ⟨rfl, compressed1978_decodes, by decide⟩ <|
  .cons ⟨rfl, compressed1979_decodes, by decide⟩ <|
  .cons ⟨rfl, compressed1980_decodes, by decide⟩ <|
  .cons ⟨rfl, compressed1981_decodes, by decide⟩ <|
  .cons ⟨rfl, compressed1982_decodes, by decide⟩ <|
  .cons ⟨rfl, compressed1983_decodes, by decide⟩ <|
  .cons ⟨rfl, compressed1984_decodes, by decide⟩ <|
  .cons ⟨rfl, compressed1985_decodes, by decide⟩ <|
  .cons ⟨rfl, compressed1986_decodes, by decide⟩ <|
  .cons ⟨rfl, compressed1987_decodes, by decide⟩ <|
  .cons ⟨rfl, compressed1988_decodes, by decide⟩ <|
  .cons ⟨rfl, compressed1989_decodes, by decide⟩ <|
  .cons ⟨rfl, compressed1990_decodes, by decide⟩ <|
  .cons ⟨rfl, compressed1991_decodes, by decide⟩ <|
  .cons ⟨rfl, compressed1992_decodes, by decide⟩ <|
  .cons ⟨rfl, compressed1993_decodes, by decide⟩ <|
  .cons ⟨rfl, compressed1994_decodes, by decide⟩ <|
  .cons ⟨rfl, compressed1995_decodes, by decide⟩ <|
  .cons ⟨rfl, compressed1996_decodes, by decide⟩ <|
  .cons ⟨rfl, compressed1997_decodes, by decide⟩ <|
  .cons ⟨rfl, compressed1998_decodes, by decide⟩ <|
  .cons ⟨rfl, compressed1999_decodes, by decide⟩ <|
  .cons ⟨rfl, compressed2000_decodes, by decide⟩ <|
  .cons ⟨rfl, compressed2001_decodes, by decide⟩ <|
  .cons ⟨rfl, compressed2002_decodes, by decide⟩ <|
  .cons ⟨rfl, compressed2003_decodes, by decide⟩ <|
  .cons ⟨rfl, compressed2004_decodes, by decide⟩ <|
  .cons ⟨rfl, compressed2005_decodes, by decide⟩ <|
  .cons ⟨rfl, compressed2006_decodes, by decide⟩ <|
  .cons ⟨rfl, compressed2007_decodes, by decide⟩ <|
  .cons ⟨rfl, compressed2008_decodes, by decide⟩ <|
  .cons ⟨rfl, compressed2009_decodes, by decide⟩ <|
  .cons ⟨rfl, compressed2010_decodes, by decide⟩ <|
  .cons ⟨rfl, compressed2011_decodes, by decide⟩ <|
  .cons ⟨rfl, compressed2012_decodes, by decide⟩ <|
  .cons ⟨rfl, compressed2013_decodes, by decide⟩ <|
  .cons ⟨rfl, compressed2014_decodes, by decide⟩ <|
  .cons ⟨rfl, compressed2015_decodes, by decide⟩ <|
  .cons ⟨rfl, compressed2016_decodes, by decide⟩ <|
  .cons ⟨rfl, compressed2017_decodes, by decide⟩ <|
  .cons ⟨rfl, compressed2018_decodes, by decide⟩ <|
  .cons ⟨rfl, compressed2019_decodes, by decide⟩ <|
  .cons ⟨rfl, compressed2020_decodes, by decide⟩ <|
  .cons ⟨rfl, compressed2021_decodes, by decide⟩ <|
  .cons ⟨rfl, compressed2022_decodes, by decide⟩ <|
  .cons ⟨rfl, compressed2023_decodes, by decide⟩ <|
  .cons ⟨rfl, compressed2024_decodes, by decide⟩ <|
  .cons ⟨rfl, compressed2025_decodes, by decide⟩ <|
  .cons ⟨rfl, compressed2026_decodes, by decide⟩ <|
  .cons ⟨rfl, compressed2027_decodes, by decide⟩ <|
  .cons ⟨rfl, compressed2028_decodes, by decide⟩ <|
  .cons ⟨rfl, compressed2029_decodes, by decide⟩ <|
  .cons ⟨rfl, compressed2030_decodes, by decide⟩ <|
  .cons ⟨rfl, compressed2031_decodes, by decide⟩ <|
  .cons ⟨rfl, compressed2032_decodes, by decide⟩ <|
  .cons ⟨rfl, compressed2033_decodes, by decide⟩ <|
  .cons ⟨rfl, noData_decodes, by decide⟩ <|
  .cons ⟨rfl, noData_decodes, by decide⟩ <|
  .cons ⟨rfl, noData_decodes, by decide⟩ <|
  .cons ⟨rfl, noData_decodes, by decide⟩ <|
  .cons ⟨rfl, noData_decodes, by decide⟩ <|
  .cons ⟨rfl, noData_decodes, by decide⟩ <|
  .cons ⟨rfl, noData_decodes, by decide⟩ <|
  .nil

end Verif.Lemmas.AstroText
