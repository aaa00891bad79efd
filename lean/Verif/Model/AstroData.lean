import Verif.Model.CalDay
/-
The astronomical data embedded in data.go:187-3524, i.e. the files data/astro/astro-1900.json .. astro-2040.json
(theorem c60_decoded: the compressed contents in data.go decode to exactly these files).
Transcribed by a script. One number per moon of a file's "response": the digits of "dateTimeISO" (year, month, day,
hour, minute, second as written, then the hours of the UTC offset) and "code", in the order of the file:
2015_01_05_04_54_08_0_2 stands for {"dateTimeISO":"2015-01-05T04:54:08+00:00","code":2}. All offsets are whole hours.
A file without data is {"success":true,"error":{"code":"warn_no_data",...},"response":[]}.
-/
set_option autoImplicit false

namespace Verif.Model
open Verif.Go

/-- One moon of a data file: what `json.Unmarshal` (astro_moon.go:65) stores in `AerisMoon` (aeris_moon.go:9-14) for it. -/
def aerisMoon (n : Nat) : AerisMoon :=
  let code := n % 10
  let n := n / 10
  let offset := n % 10
  let n := n / 10
  let second := n % 100
  let n := n / 100
  let minute := n % 100
  let n := n / 100
  let hour := n % 100
  let n := n / 100
  let day := n % 100
  let n := n / 100
  let month := n % 100
  let year := n / 100
  { DateTimeISO := date year month day ((hour * 3600 + minute * 60 + second : Nat) * nsPerSec) ((offset : Int) * 3600),
    Code := code }

/-- data/astro/astro-1902.json. -/
def astro1902 : List Nat := [
  1902_01_01_16_08_36_0_3, 1902_01_09_21_14_24_0_0, 1902_01_17_06_37_32_0_1, 1902_01_24_00_05_28_0_2,
  1902_01_31_13_08_35_0_3, 1902_02_08_13_21_31_0_0, 1902_02_15_14_55_58_0_1, 1902_02_22_13_02_30_0_2,
  1902_03_02_10_39_06_0_3, 1902_03_10_02_50_14_0_0, 1902_03_16_22_12_36_0_1, 1902_03_24_03_20_23_0_2,
  1902_04_01_06_24_04_0_3, 1902_04_08_13_50_11_0_0, 1902_04_15_05_25_28_0_1, 1902_04_22_18_48_44_0_2,
  1902_04_30_22_58_11_0_3, 1902_05_07_22_45_04_0_0, 1902_05_14_13_39_12_0_1, 1902_05_22_10_45_26_0_2,
  1902_05_30_12_00_23_0_3, 1902_06_06_06_10_37_0_0, 1902_06_12_23_52_47_0_1, 1902_06_21_02_16_33_0_2,
  1902_06_28_21_52_01_0_3, 1902_07_05_12_58_50_0_0, 1902_07_12_12_45_08_0_1, 1902_07_20_16_45_11_0_2,
  1902_07_28_05_14_53_0_3, 1902_08_03_20_16_37_0_0, 1902_08_11_04_22_06_0_1, 1902_08_19_06_03_38_0_2,
  1902_08_26_11_04_53_0_3, 1902_09_02_05_18_14_0_0, 1902_09_09_22_13_01_0_1, 1902_09_17_18_23_57_0_2,
  1902_09_24_16_32_19_0_3, 1902_10_01_17_08_02_0_0, 1902_10_09_17_19_58_0_1, 1902_10_17_06_01_34_0_2,
  1902_10_23_22_59_03_0_3, 1902_10_31_08_13_22_0_0, 1902_11_08_12_30_43_0_1, 1902_11_15_17_06_48_0_2,
  1902_11_22_07_48_08_0_3, 1902_11_30_02_04_56_0_0, 1902_12_08_06_27_22_0_1, 1902_12_15_03_47_41_0_2,
  1902_12_21_20_01_15_0_3, 1902_12_29_21_25_16_0_0]

/-- data/astro/astro-1903.json. -/
def astro1903 : List Nat := [
  1903_01_06_21_56_53_0_1, 1903_01_13_14_17_33_0_2, 1903_01_20_11_49_38_0_3, 1903_01_28_16_38_54_0_0,
  1903_02_05_10_12_08_0_1, 1903_02_12_00_57_56_0_2, 1903_02_19_06_22_25_0_3, 1903_02_27_10_19_56_0_0,
  1903_03_06_19_13_23_0_1, 1903_03_13_12_12_33_0_2, 1903_03_21_02_07_48_0_3, 1903_03_29_01_26_39_0_0,
  1903_04_05_01_50_46_0_1, 1903_04_12_00_17_34_0_2, 1903_04_19_21_31_06_0_3, 1903_04_27_13_31_47_0_0,
  1903_05_04_07_25_08_0_1, 1903_05_11_13_17_01_0_2, 1903_05_19_15_19_18_0_3, 1903_05_26_22_49_28_0_0,
  1903_06_02_13_23_20_0_1, 1903_06_10_03_07_14_0_2, 1903_06_18_06_44_58_0_3, 1903_06_25_06_10_25_0_0,
  1903_07_01_21_01_01_0_1, 1903_07_09_17_42_41_0_2, 1903_07_17_19_24_47_0_3, 1903_07_24_12_45_52_0_0,
  1903_07_31_07_13_32_0_1, 1903_08_08_08_54_11_0_2, 1903_08_16_05_22_55_0_3, 1903_08_22_19_50_34_0_0,
  1903_08_29_20_33_02_0_1, 1903_09_07_00_20_07_0_2, 1903_09_14_13_13_40_0_3, 1903_09_21_04_30_02_0_0,
  1903_09_28_13_07_26_0_1, 1903_10_06_15_24_00_0_2, 1903_10_13_19_56_48_0_3, 1903_10_20_15_29_48_0_0,
  1903_10_28_08_32_37_0_1, 1903_11_05_05_27_55_0_2, 1903_11_12_02_46_16_0_3, 1903_11_19_05_09_56_0_0,
  1903_11_27_05_37_08_0_1, 1903_12_04_18_13_12_0_2, 1903_12_11_10_53_53_0_3, 1903_12_18_21_26_05_0_0,
  1903_12_27_02_22_32_0_1]

/-- data/astro/astro-1904.json. -/
def astro1904 : List Nat := [
  1904_01_03_05_47_48_0_2, 1904_01_09_21_10_53_0_3, 1904_01_17_15_46_52_0_0, 1904_01_25_20_40_21_0_1,
  1904_02_01_16_33_21_0_2, 1904_02_08_09_56_31_0_3, 1904_02_16_11_04_34_0_0, 1904_02_24_11_07_28_0_1,
  1904_03_02_02_47_57_0_2, 1904_03_09_01_00_39_0_3, 1904_03_17_05_39_06_0_0, 1904_03_24_21_34_56_0_1,
  1904_03_31_12_43_08_0_2, 1904_04_07_17_53_41_0_3, 1904_04_15_21_53_13_0_0, 1904_04_23_04_52_50_0_1,
  1904_04_29_22_34_43_0_2, 1904_05_07_11_51_01_0_3, 1904_05_15_10_58_11_0_0, 1904_05_22_10_17_25_0_1,
  1904_05_29_08_53_13_0_2, 1904_06_06_05_53_12_0_3, 1904_06_13_21_09_54_0_0, 1904_06_20_15_09_52_0_1,
  1904_06_27_20_22_09_0_2, 1904_07_05_22_54_33_0_3, 1904_07_13_05_26_58_0_0, 1904_07_19_20_48_49_0_1,
  1904_07_27_09_41_30_0_2, 1904_08_04_14_03_23_0_3, 1904_08_11_12_58_04_0_0, 1904_08_18_04_27_42_0_1,
  1904_08_26_01_02_33_0_2, 1904_09_03_02_59_07_0_3, 1904_09_09_20_42_35_0_0, 1904_09_16_15_12_57_0_1,
  1904_09_24_17_50_51_0_2, 1904_10_02_13_52_42_0_3, 1904_10_09_05_24_47_0_0, 1904_10_16_05_54_03_0_1,
  1904_10_24_10_57_10_0_2, 1904_10_31_23_13_46_0_3, 1904_11_07_15_36_50_0_0, 1904_11_15_00_35_21_0_1,
  1904_11_23_03_13_24_0_2, 1904_11_30_07_38_46_0_3, 1904_12_07_03_46_54_0_0, 1904_12_14_22_06_17_0_1,
  1904_12_22_18_02_10_0_2, 1904_12_29_15_47_00_0_3]

/-- data/astro/astro-1905.json. -/
def astro1905 : List Nat := [
  1905_01_05_18_18_07_0_0, 1905_01_13_20_10_03_0_1, 1905_01_21_07_15_06_0_2, 1905_01_28_00_21_07_0_3,
  1905_02_04_11_07_04_0_0, 1905_02_12_16_19_53_0_1, 1905_02_19_18_52_35_0_2, 1905_02_26_10_05_02_0_3,
  1905_03_06_05_20_19_0_0, 1905_03_14_08_59_20_0_1, 1905_03_21_04_55_35_0_2, 1905_03_27_21_36_20_0_3,
  1905_04_04_23_24_20_0_0, 1905_04_12_21_40_38_0_1, 1905_04_19_13_37_15_0_2, 1905_04_26_11_14_22_0_3,
  1905_05_04_15_50_40_0_0, 1905_05_12_06_45_41_0_1, 1905_05_18_21_35_24_0_2, 1905_05_26_02_49_59_0_3,
  1905_06_03_05_56_45_0_0, 1905_06_10_13_04_29_0_1, 1905_06_17_05_50_28_0_2, 1905_06_24_19_45_34_0_3,
  1905_07_02_17_49_26_0_0, 1905_07_09_17_46_41_0_1, 1905_07_16_15_30_45_0_2, 1905_07_24_13_08_42_0_3,
  1905_08_01_04_01_51_0_0, 1905_08_07_22_17_14_0_1, 1905_08_15_03_30_51_0_2, 1905_08_23_06_10_39_0_3,
  1905_08_30_13_12_28_0_0, 1905_09_06_04_09_26_0_1, 1905_09_13_18_10_04_0_2, 1905_09_21_22_14_44_0_3,
  1905_09_28_21_58_30_0_0, 1905_10_05_12_54_03_0_1, 1905_10_13_11_03_16_0_2, 1905_10_21_12_51_30_0_3,
  1905_10_28_06_57_13_0_0, 1905_11_04_01_38_20_0_1, 1905_11_12_05_12_09_0_2, 1905_11_20_01_34_21_0_3,
  1905_11_26_16_47_12_0_0, 1905_12_03_18_36_11_0_1, 1905_12_11_23_26_19_0_2, 1905_12_19_12_08_49_0_3,
  1905_12_26_04_04_38_0_0]

/-- data/astro/astro-1906.json. -/
def astro1906 : List Nat := [
  1906_01_02_14_50_43_0_1, 1906_01_10_16_37_26_0_2, 1906_01_17_20_49_10_0_3, 1906_01_24_17_10_57_0_0,
  1906_02_01_12_30_25_0_1, 1906_02_09_07_46_57_0_2, 1906_02_16_04_23_28_0_3, 1906_02_23_07_59_10_0_0,
  1906_03_03_09_29_20_0_1, 1906_03_10_20_18_44_0_2, 1906_03_17_11_58_44_0_3, 1906_03_24_23_53_54_0_0,
  1906_04_02_04_03_15_0_1, 1906_04_09_06_13_27_0_2, 1906_04_15_20_37_50_0_3, 1906_04_23_16_08_10_0_0,
  1906_05_01_19_07_40_0_1, 1906_05_08_14_10_06_0_2, 1906_05_15_07_03_16_0_3, 1906_05_23_08_01_40_0_0,
  1906_05_31_06_23_59_0_1, 1906_06_06_21_11_39_0_2, 1906_06_13_19_34_20_0_3, 1906_06_21_23_05_33_0_0,
  1906_06_29_14_18_56_0_1, 1906_07_06_04_27_03_0_2, 1906_07_13_10_12_44_0_3, 1906_07_21_12_58_16_0_0,
  1906_07_28_19_56_15_0_1, 1906_08_04_12_58_46_0_2, 1906_08_12_02_48_11_0_3, 1906_08_20_01_26_06_0_0,
  1906_08_27_00_42_19_0_1, 1906_09_02_23_35_18_0_2, 1906_09_10_20_54_51_0_3, 1906_09_18_12_31_57_0_0,
  1906_09_25_06_11_20_0_1, 1906_10_02_12_47_34_0_2, 1906_10_10_15_40_35_0_3, 1906_10_17_22_41_23_0_0,
  1906_10_24_13_49_53_0_1, 1906_11_01_04_45_40_0_2, 1906_11_09_09_45_38_0_3, 1906_11_16_08_35_56_0_0,
  1906_11_23_00_39_28_0_1, 1906_11_30_23_07_44_0_2, 1906_12_09_01_45_32_0_3, 1906_12_15_18_54_53_0_0,
  1906_12_22_15_03_12_0_1, 1906_12_30_18_44_28_0_2]

/-- data/astro/astro-1907.json. -/
def astro1907 : List Nat := [
  1907_01_07_14_47_35_0_3, 1907_01_14_05_58_08_0_0, 1907_01_21_08_41_43_0_1, 1907_01_29_13_45_49_0_2,
  1907_02_06_00_51_45_0_3, 1907_02_12_17_44_31_0_0, 1907_02_20_04_35_22_0_1, 1907_02_28_06_24_23_0_2,
  1907_03_07_08_41_49_0_3, 1907_03_14_06_06_39_0_0, 1907_03_22_01_10_37_0_1, 1907_03_29_19_46_20_0_2,
  1907_04_05_15_21_02_0_3, 1907_04_12_19_07_32_0_0, 1907_04_20_20_38_25_0_1, 1907_04_28_06_05_56_0_2,
  1907_05_04_21_53_56_0_3, 1907_05_12_09_00_22_0_0, 1907_05_20_13_27_27_0_1, 1907_05_27_14_18_32_0_2,
  1907_06_03_05_20_08_0_3, 1907_06_10_23_50_20_0_0, 1907_06_19_02_54_37_0_1, 1907_06_25_21_27_19_0_2,
  1907_07_02_14_34_22_0_3, 1907_07_10_15_16_49_0_0, 1907_07_18_13_11_05_0_1, 1907_07_25_04_29_00_0_2,
  1907_08_01_02_25_52_0_3, 1907_08_09_06_35_37_0_0, 1907_08_16_21_04_55_0_1, 1907_08_23_12_14_13_0_2,
  1907_08_30_17_28_22_0_3, 1907_09_07_21_02_39_0_0, 1907_09_15_03_39_46_0_1, 1907_09_21_21_32_32_0_2,
  1907_09_29_11_37_35_0_3, 1907_10_07_10_19_20_0_0, 1907_10_14_10_02_03_0_1, 1907_10_21_09_15_23_0_2,
  1907_10_29_07_51_46_0_3, 1907_11_05_22_37_52_0_0, 1907_11_12_17_15_20_0_1, 1907_11_20_00_03_58_0_2,
  1907_11_28_04_21_36_0_3, 1907_12_05_10_22_08_0_0, 1907_12_12_02_17_05_0_1, 1907_12_19_17_55_39_0_2,
  1907_12_27_23_11_33_0_3]

/-- data/astro/astro-1908.json. -/
def astro1908 : List Nat := [
  1908_01_03_21_43_42_0_0, 1908_01_10_13_53_42_0_1, 1908_01_18_13_37_21_0_2, 1908_01_26_15_02_12_0_3,
  1908_02_02_08_37_13_0_0, 1908_02_09_04_28_11_0_1, 1908_02_17_09_05_59_0_2, 1908_02_25_03_24_42_0_3,
  1908_03_02_18_58_17_0_0, 1908_03_09_21_42_25_0_1, 1908_03_18_02_29_51_0_2, 1908_03_25_12_32_00_0_3,
  1908_04_01_05_04_00_0_0, 1908_04_08_16_31_09_0_1, 1908_04_16_16_56_55_0_2, 1908_04_23_19_07_28_0_3,
  1908_04_30_15_34_56_0_0, 1908_05_08_11_22_40_0_1, 1908_05_16_04_33_56_0_2, 1908_05_23_00_18_12_0_3,
  1908_05_30_03_16_12_0_0, 1908_06_07_04_55_54_0_1, 1908_06_14_13_56_42_0_2, 1908_06_21_05_27_16_0_3,
  1908_06_28_16_32_50_0_0, 1908_07_06_20_25_33_0_1, 1908_07_13_21_49_01_0_2, 1908_07_20_12_02_53_0_3,
  1908_07_28_07_17_43_0_0, 1908_08_05_09_41_04_0_1, 1908_08_12_04_59_27_0_2, 1908_08_18_21_26_12_0_3,
  1908_08_26_22_58_59_0_0, 1908_09_03_20_51_10_0_1, 1908_09_10_12_23_26_0_2, 1908_09_17_10_33_38_0_3,
  1908_09_25_14_58_46_0_0, 1908_10_03_06_13_28_0_1, 1908_10_09_21_02_44_0_2, 1908_10_17_03_34_51_0_3,
  1908_10_25_06_45_29_0_0, 1908_11_01_14_16_06_0_1, 1908_11_08_07_57_06_0_2, 1908_11_15_23_40_34_0_3,
  1908_11_23_21_51_47_0_0, 1908_11_30_21_44_20_0_1, 1908_12_07_21_43_24_0_2, 1908_12_15_21_12_57_0_3,
  1908_12_23_11_48_45_0_0, 1908_12_30_05_40_07_0_1]

/-- data/astro/astro-1909.json. -/
def astro1909 : List Nat := [
  1909_01_06_14_12_05_0_2, 1909_01_14_18_12_35_0_3, 1909_01_22_00_11_11_0_0, 1909_01_28_15_07_34_0_1,
  1909_02_05_08_24_01_0_2, 1909_02_13_12_48_11_0_3, 1909_02_20_10_52_13_0_0, 1909_02_27_02_48_52_0_1,
  1909_03_07_02_55_13_0_2, 1909_03_15_03_42_21_0_3, 1909_03_21_20_12_07_0_0, 1909_03_28_16_47_57_0_1,
  1909_04_05_20_28_21_0_2, 1909_04_13_14_30_37_0_3, 1909_04_20_04_52_42_0_0, 1909_04_27_08_35_07_0_1,
  1909_05_05_12_08_31_0_2, 1909_05_12_21_45_41_0_3, 1909_05_19_13_43_36_0_0, 1909_05_27_01_27_15_0_1,
  1909_06_04_01_26_04_0_2, 1909_06_11_02_43_09_0_3, 1909_06_17_23_29_55_0_0, 1909_06_25_18_43_34_0_1,
  1909_07_03_12_19_01_0_2, 1909_07_10_06_59_03_0_3, 1909_07_17_10_46_06_0_0, 1909_07_25_11_46_41_0_1,
  1909_08_01_21_15_35_0_2, 1909_08_08_12_11_15_0_3, 1909_08_15_23_55_28_0_0, 1909_08_24_03_56_24_0_1,
  1909_08_31_05_09_22_0_2, 1909_09_06_19_45_52_0_3, 1909_09_14_15_08_46_0_0, 1909_09_22_18_31_34_0_1,
  1909_09_29_13_06_19_0_2, 1909_10_06_06_45_05_0_3, 1909_10_14_08_13_09_0_0, 1909_10_22_07_02_59_0_1,
  1909_10_28_22_07_17_0_2, 1909_11_04_21_37_59_0_3, 1909_11_13_02_17_41_0_0, 1909_11_20_17_28_22_0_1,
  1909_11_27_08_51_32_0_2, 1909_12_04_16_13_02_0_3, 1909_12_12_19_57_59_0_0, 1909_12_20_02_17_05_0_1,
  1909_12_26_21_29_21_0_2]

/-- data/astro/astro-1910.json. -/
def astro1910 : List Nat := [
  1910_01_03_13_28_14_0_3, 1910_01_11_11_50_46_0_0, 1910_01_18_10_20_17_0_1, 1910_01_25_11_49_57_0_2,
  1910_02_02_11_28_51_0_3, 1910_02_10_01_13_18_0_0, 1910_02_16_18_32_39_0_1, 1910_02_24_03_35_12_0_2,
  1910_03_04_07_53_42_0_3, 1910_03_11_12_13_00_0_0, 1910_03_18_03_37_29_0_1, 1910_03_25_20_20_20_0_2,
  1910_04_03_00_48_41_0_3, 1910_04_09_21_25_54_0_0, 1910_04_16_14_03_51_0_1, 1910_04_24_13_22_22_0_2,
  1910_05_02_13_29_49_0_3, 1910_05_09_05_33_34_0_0, 1910_05_16_02_12_33_0_1, 1910_05_24_05_39_10_0_2,
  1910_05_31_22_23_59_0_3, 1910_06_07_13_16_53_0_0, 1910_06_14_16_18_59_0_1, 1910_06_22_20_12_28_0_2,
  1910_06_30_04_38_44_0_3, 1910_07_06_21_20_26_0_0, 1910_07_14_08_24_10_0_1, 1910_07_22_08_37_50_0_2,
  1910_07_29_09_34_48_0_3, 1910_08_05_06_36_51_0_0, 1910_08_13_02_00_31_0_1, 1910_08_20_19_15_03_0_2,
  1910_08_27_14_34_09_0_3, 1910_09_03_18_04_49_0_0, 1910_09_11_20_09_28_0_1, 1910_09_19_04_53_21_0_2,
  1910_09_25_20_55_13_0_3, 1910_10_03_08_31_04_0_0, 1910_10_11_13_38_55_0_1, 1910_10_18_14_25_11_0_2,
  1910_10_25_05_49_15_0_3, 1910_11_02_01_55_51_0_0, 1910_11_10_05_28_34_0_1, 1910_11_17_00_25_08_0_2,
  1910_11_23_18_14_15_0_3, 1910_12_01_21_10_36_0_0, 1910_12_09_19_04_42_0_1, 1910_12_16_11_04_46_0_2,
  1910_12_23_10_36_34_0_3]

/-- data/astro/astro-1911.json. -/
def astro1911 : List Nat := [
  1911_01_08_06_19_42_0_1, 1911_01_14_22_25_39_0_2, 1911_01_22_06_21_39_0_3, 1911_01_30_09_45_08_0_0,
  1911_02_06_15_27_22_0_1, 1911_02_13_10_37_12_0_2, 1911_02_21_03_44_42_0_3, 1911_03_01_00_31_55_0_0,
  1911_03_07_23_01_38_0_1, 1911_03_14_23_58_06_0_2, 1911_03_23_00_26_58_0_3, 1911_03_30_12_38_41_0_0,
  1911_04_06_05_55_22_0_1, 1911_04_13_14_36_15_0_2, 1911_04_21_18_36_32_0_3, 1911_04_28_22_25_38_0_0,
  1911_05_05_13_13_54_0_1, 1911_05_13_06_09_31_0_2, 1911_05_21_09_23_22_0_3, 1911_05_28_06_24_13_0_0,
  1911_06_03_22_03_50_0_1, 1911_06_11_21_50_44_0_2, 1911_06_19_20_51_02_0_3, 1911_06_26_13_19_31_0_0,
  1911_07_03_09_19_31_0_1, 1911_07_11_12_53_40_0_2, 1911_07_19_05_31_26_0_3, 1911_07_25_20_12_05_0_0,
  1911_08_01_23_28_06_0_1, 1911_08_10_02_55_21_0_2, 1911_08_17_12_11_25_0_3, 1911_08_24_04_13_49_0_0,
  1911_08_31_16_19_10_0_1, 1911_09_08_15_57_26_0_2, 1911_09_15_17_51_50_0_3, 1911_09_22_14_36_34_0_0,
  1911_09_30_11_06_42_0_1, 1911_10_08_04_12_02_0_2, 1911_10_14_23_47_20_0_3, 1911_10_22_04_08_55_0_0,
  1911_10_30_06_41_18_0_1, 1911_11_06_15_48_32_0_2, 1911_11_13_07_20_40_0_3, 1911_11_20_20_49_27_0_0,
  1911_11_29_01_42_08_0_1, 1911_12_06_02_51_44_0_2, 1911_12_12_17_46_19_0_3, 1911_12_20_15_40_11_0_0,
  1911_12_28_18_47_04_0_1]

/-- data/astro/astro-1912.json. -/
def astro1912 : List Nat := [
  1912_01_04_13_29_04_0_2, 1912_01_11_07_42_44_0_3, 1912_01_19_11_09_21_0_0, 1912_01_27_08_50_05_0_1,
  1912_02_02_23_57_20_0_2, 1912_02_10_00_49_49_0_3, 1912_02_18_05_43_35_0_0, 1912_02_25_19_25_28_0_1,
  1912_03_03_10_41_06_0_2, 1912_03_10_19_54_31_0_3, 1912_03_18_22_08_39_0_0, 1912_03_26_03_00_47_0_1,
  1912_04_01_22_03_35_0_2, 1912_04_09_15_23_48_0_3, 1912_04_17_11_40_27_0_0, 1912_04_24_08_46_21_0_1,
  1912_05_01_10_18_22_0_2, 1912_05_09_09_56_57_0_3, 1912_05_16_22_13_41_0_0, 1912_05_23_14_10_30_0_1,
  1912_05_30_23_28_48_0_2, 1912_06_08_02_36_50_0_3, 1912_06_15_06_23_22_0_0, 1912_06_21_20_38_06_0_1,
  1912_06_29_13_33_30_0_2, 1912_07_07_16_48_04_0_3, 1912_07_14_13_13_09_0_0, 1912_07_21_05_17_51_0_1,
  1912_07_29_04_28_21_0_2, 1912_08_06_04_18_23_0_3, 1912_08_12_19_57_48_0_0, 1912_08_19_16_55_55_0_1,
  1912_08_27_19_59_29_0_2, 1912_09_04_13_23_41_0_3, 1912_09_11_03_48_27_0_0, 1912_09_18_07_54_08_0_1,
  1912_09_26_11_35_12_0_2, 1912_10_03_20_48_28_0_3, 1912_10_10_13_40_31_0_0, 1912_10_18_02_06_09_0_1,
  1912_10_26_02_31_27_0_2, 1912_11_02_03_38_12_0_3, 1912_11_09_02_04_50_0_0, 1912_11_16_22_43_52_0_1,
  1912_11_24_16_12_46_0_2, 1912_12_01_11_05_35_0_3, 1912_12_08_17_06_49_0_0, 1912_12_16_20_06_37_0_1,
  1912_12_24_04_30_26_0_2, 1912_12_30_20_12_31_0_3]

/-- data/astro/astro-1913.json. -/
def astro1913 : List Nat := [
  1913_01_07_10_28_20_0_0, 1913_01_15_16_00_45_0_1, 1913_01_22_15_39_55_0_2, 1913_01_29_07_34_09_0_3,
  1913_02_06_05_21_23_0_0, 1913_02_14_08_32_40_0_1, 1913_02_21_02_02_51_0_2, 1913_02_27_21_15_05_0_3,
  1913_03_08_00_21_54_0_0, 1913_03_15_20_56_13_0_1, 1913_03_22_11_55_05_0_2, 1913_03_29_12_57_40_0_3,
  1913_04_06_17_48_11_0_0, 1913_04_14_05_37_11_0_1, 1913_04_20_21_31_19_0_2, 1913_04_28_06_09_50_0_3,
  1913_05_06_08_24_52_0_0, 1913_05_13_11_43_37_0_1, 1913_05_20_07_16_57_0_2, 1913_05_28_00_04_42_0_3,
  1913_06_04_19_57_02_0_0, 1913_06_11_16_36_37_0_1, 1913_06_18_17_52_42_0_2, 1913_06_26_17_41_27_0_3,
  1913_07_04_05_05_48_0_0, 1913_07_10_21_37_29_0_1, 1913_07_18_06_05_33_0_2, 1913_07_26_09_59_11_0_3,
  1913_08_02_12_57_41_0_0, 1913_08_09_04_03_28_0_1, 1913_08_16_20_26_39_0_2, 1913_08_25_00_18_03_0_3,
  1913_08_31_20_37_32_0_0, 1913_09_07_13_05_51_0_1, 1913_09_15_12_46_13_0_2, 1913_09_23_12_30_05_0_3,
  1913_09_30_04_56_04_0_0, 1913_10_07_01_45_32_0_1, 1913_10_15_06_07_22_0_2, 1913_10_22_22_52_56_0_3,
  1913_10_29_14_28_28_0_0, 1913_11_05_18_33_41_0_1, 1913_11_13_23_12_12_0_2, 1913_11_21_07_56_35_0_3,
  1913_11_28_01_41_13_0_0, 1913_12_05_14_57_51_0_1, 1913_12_13_15_01_02_0_2, 1913_12_20_16_15_55_0_3,
  1913_12_27_14_59_02_0_0]

/-- data/astro/astro-1914.json. -/
def astro1914 : List Nat := [
  1914_01_04_13_07_40_0_1, 1914_01_12_05_09_32_0_2, 1914_01_19_00_30_19_0_3, 1914_01_26_06_34_36_0_0,
  1914_02_03_10_31_22_0_1, 1914_02_10_17_34_54_0_2, 1914_02_17_09_23_46_0_3, 1914_02_25_00_02_36_0_0,
  1914_03_05_05_02_15_0_1, 1914_03_12_04_18_20_0_2, 1914_03_18_19_40_05_0_3, 1914_03_26_18_09_26_0_0,
  1914_04_03_19_40_27_0_1, 1914_04_10_13_27_23_0_2, 1914_04_17_07_52_37_0_3, 1914_04_25_11_22_06_0_0,
  1914_05_03_06_27_44_0_1, 1914_05_09_21_29_33_0_2, 1914_05_16_22_12_09_0_3, 1914_05_25_02_34_59_0_0,
  1914_06_01_14_02_22_0_1, 1914_06_08_05_17_14_0_2, 1914_06_15_14_19_35_0_3, 1914_06_23_15_32_38_0_0,
  1914_06_30_19_24_28_0_1, 1914_07_07_13_58_37_0_2, 1914_07_15_07_31_25_0_3, 1914_07_23_02_37_25_0_0,
  1914_07_29_23_51_26_0_1, 1914_08_06_00_39_28_0_2, 1914_08_14_00_56_07_0_3, 1914_08_21_12_25_12_0_0,
  1914_08_28_04_53_02_0_1, 1914_09_04_14_00_27_0_2, 1914_09_12_17_49_01_0_3, 1914_09_19_21_32_02_0_0,
  1914_09_26_12_02_58_0_1, 1914_10_04_05_58_58_0_2, 1914_10_12_09_33_55_0_3, 1914_10_19_06_32_30_0_0,
  1914_10_25_22_43_27_0_1, 1914_11_02_23_49_20_0_2, 1914_11_10_23_37_23_0_3, 1914_11_17_16_01_51_0_0,
  1914_11_24_13_37_47_0_1, 1914_12_02_18_21_34_0_2, 1914_12_10_11_32_03_0_3, 1914_12_17_02_35_52_0_0,
  1914_12_24_08_23_22_0_1]

/-- data/astro/astro-1915.json. -/
def astro1915 : List Nat := [
  1915_01_01_12_21_33_0_2, 1915_01_08_21_13_01_0_3, 1915_01_15_14_43_22_0_0, 1915_01_23_05_31_09_0_1,
  1915_01_31_04_42_10_0_2, 1915_02_07_05_11_15_0_3, 1915_02_14_04_32_33_0_0, 1915_02_22_02_57_58_0_1,
  1915_03_01_18_33_27_0_2, 1915_03_08_12_27_51_0_3, 1915_03_15_19_43_19_0_0, 1915_03_23_22_47_59_0_1,
  1915_03_31_05_37_52_0_2, 1915_04_06_20_12_23_0_3, 1915_04_14_11_36_08_0_0, 1915_04_22_15_38_25_0_1,
  1915_04_29_14_18_45_0_2, 1915_05_06_05_21_49_0_3, 1915_05_14_03_30_36_0_0, 1915_05_22_04_48_50_0_1,
  1915_05_28_21_31_39_0_2, 1915_06_04_16_30_44_0_3, 1915_06_12_18_56_00_0_0, 1915_06_20_14_23_32_0_1,
  1915_06_27_04_25_56_0_2, 1915_07_04_05_52_49_0_3, 1915_07_12_09_29_00_0_0, 1915_07_19_21_07_46_0_1,
  1915_07_26_12_09_24_0_2, 1915_08_02_21_26_42_0_3, 1915_08_10_22_50_20_0_0, 1915_08_18_02_16_38_0_1,
  1915_08_24_21_38_42_0_2, 1915_09_01_14_57_00_0_3, 1915_09_09_10_50_32_0_0, 1915_09_16_07_20_43_0_1,
  1915_09_23_09_33_39_0_2, 1915_10_01_09_45_12_0_3, 1915_10_08_21_40_11_0_0, 1915_10_15_13_51_14_0_1,
  1915_10_23_00_14_40_0_2, 1915_10_31_04_40_30_0_3, 1915_11_07_07_51_10_0_0, 1915_11_13_23_03_02_0_1,
  1915_11_21_17_36_28_0_2, 1915_11_29_22_11_01_0_3, 1915_12_06_18_03_41_0_0, 1915_12_13_11_38_05_0_1,
  1915_12_21_12_52_56_0_2, 1915_12_29_12_59_03_0_3]

/-- data/astro/astro-1916.json. -/
def astro1916 : List Nat := [
  1916_01_05_04_46_31_0_0, 1916_01_12_03_37_08_0_1, 1916_01_20_08_29_31_0_2, 1916_01_28_00_35_06_0_3,
  1916_02_03_16_07_00_0_0, 1916_02_10_22_20_41_0_1, 1916_02_19_02_29_37_0_2, 1916_02_26_09_23_37_0_3,
  1916_03_04_03_59_15_0_0, 1916_03_11_18_33_36_0_1, 1916_03_19_17_28_19_0_2, 1916_03_26_16_22_19_0_3,
  1916_04_02_16_22_25_0_0, 1916_04_10_14_35_46_0_1, 1916_04_18_05_08_38_0_2, 1916_04_24_22_38_21_0_3,
  1916_05_02_05_29_44_0_0, 1916_05_10_08_46_37_0_1, 1916_05_17_14_11_48_0_2, 1916_05_24_06_16_26_1_3,
  1916_05_31_20_37_26_1_0, 1916_06_09_00_58_04_1_1, 1916_06_15_22_41_41_1_2, 1916_06_22_14_16_20_1_3,
  1916_06_30_11_43_00_1_0, 1916_07_08_12_54_11_1_1, 1916_07_15_05_39_45_1_2, 1916_07_22_00_33_11_1_3,
  1916_07_30_03_14_28_1_0, 1916_08_06_22_05_00_1_1, 1916_08_13_12_59_28_1_2, 1916_08_20_13_52_59_1_3,
  1916_08_28_18_23_21_1_0, 1916_09_05_05_25_49_1_1, 1916_09_11_21_29_35_1_2, 1916_09_19_06_35_28_1_3,
  1916_09_27_08_32_29_1_0, 1916_10_04_10_59_59_0_1, 1916_10_11_06_59_22_0_2, 1916_10_19_01_08_27_0_3,
  1916_10_26_20_35_15_0_0, 1916_11_02_17_50_20_0_1, 1916_11_09_20_16_21_0_2, 1916_11_17_21_59_44_0_3,
  1916_11_25_08_48_54_0_0, 1916_12_02_01_55_35_0_1, 1916_12_09_12_42_59_0_2, 1916_12_17_18_06_05_0_3,
  1916_12_24_20_30_16_0_0]

/-- data/astro/astro-1917.json. -/
def astro1917 : List Nat := [
  1917_01_08_07_41_27_0_2, 1917_01_16_11_42_21_0_3, 1917_01_23_07_39_43_0_0, 1917_01_30_01_01_21_0_1,
  1917_02_07_03_28_02_0_2, 1917_02_15_01_53_13_0_3, 1917_02_21_18_09_35_0_0, 1917_02_28_16_43_56_0_1,
  1917_03_08_21_58_40_0_2, 1917_03_16_12_33_02_0_3, 1917_03_23_04_06_26_0_0, 1917_03_30_10_36_13_0_1,
  1917_04_07_13_50_19_0_2, 1917_04_14_21_12_24_1_3, 1917_04_21_15_03_02_1_0, 1917_04_29_06_21_09_1_1,
  1917_05_07_03_44_45_1_2, 1917_05_14_02_48_40_1_3, 1917_05_21_01_48_20_1_0, 1917_05_29_00_32_43_1_1,
  1917_06_05_14_07_59_1_2, 1917_06_12_07_39_26_1_3, 1917_06_19_14_03_22_1_0, 1917_06_27_17_08_21_1_1,
  1917_07_04_22_41_37_1_2, 1917_07_11_13_12_59_1_3, 1917_07_19_04_00_45_1_0, 1917_07_27_07_40_49_1_1,
  1917_08_03_06_11_29_1_2, 1917_08_09_20_57_16_1_3, 1917_08_17_19_21_09_1_0, 1917_08_25_20_08_29_1_1,
  1917_09_01_13_28_39_1_2, 1917_09_08_08_05_22_1_3, 1917_09_16_11_27_01_1_0, 1917_09_24_05_41_19_0_1,
  1917_09_30_20_30_46_0_2, 1917_10_07_22_13_57_0_3, 1917_10_16_02_40_03_0_0, 1917_10_23_14_37_15_0_1,
  1917_10_30_06_18_21_0_2, 1917_11_06_17_02_52_0_3, 1917_11_14_18_27_16_0_0, 1917_11_21_22_28_37_0_1,
  1917_11_28_18_40_28_0_2, 1917_12_06_14_13_30_0_3, 1917_12_14_09_16_09_0_0, 1917_12_21_06_07_23_0_1,
  1917_12_28_09_50_56_0_2]

/-- data/astro/astro-1918.json. -/
def astro1918 : List Nat := [
  1918_01_05_11_50_32_0_3, 1918_01_12_22_34_49_0_0, 1918_01_19_14_38_07_0_1, 1918_01_27_03_13_28_0_2,
  1918_02_04_07_53_21_0_3, 1918_02_11_10_04_31_0_0, 1918_02_18_00_57_05_0_1, 1918_02_25_21_34_14_0_2,
  1918_03_06_00_44_54_0_3, 1918_03_12_19_53_07_0_0, 1918_03_19_13_30_11_0_1, 1918_03_27_16_32_52_1_2,
  1918_04_04_14_33_56_1_3, 1918_04_11_05_35_38_1_0, 1918_04_18_05_06_47_1_1, 1918_04_26_09_05_55_1_2,
  1918_05_03_23_26_32_1_3, 1918_05_10_14_02_10_1_0, 1918_05_17_21_13_07_1_1, 1918_05_25_23_33_13_1_2,
  1918_06_02_05_19_59_1_3, 1918_06_08_23_03_42_1_0, 1918_06_16_14_10_58_1_1, 1918_06_24_11_38_57_1_2,
  1918_07_01_09_42_47_1_3, 1918_07_08_09_22_32_1_0, 1918_07_16_07_24_41_1_1, 1918_07_23_21_35_17_1_2,
  1918_07_30_14_13_51_1_3, 1918_08_06_21_29_16_1_0, 1918_08_15_00_16_18_1_1, 1918_08_22_06_02_40_1_2,
  1918_08_28_20_27_14_1_3, 1918_09_05_11_42_49_1_0, 1918_09_13_16_01_39_1_1, 1918_09_20_14_01_14_1_2,
  1918_09_27_05_38_56_1_3, 1918_10_05_03_04_08_0_0, 1918_10_13_04_58_47_0_1, 1918_10_19_21_34_48_0_2,
  1918_10_26_17_35_21_0_3, 1918_11_03_21_00_40_0_0, 1918_11_11_16_45_12_0_1, 1918_11_18_07_32_44_0_2,
  1918_11_25_10_25_16_0_3, 1918_12_03_15_18_25_0_0, 1918_12_11_02_30_33_0_1, 1918_12_17_19_17_00_0_2,
  1918_12_25_06_31_34_0_3]

/-- data/astro/astro-1919.json. -/
def astro1919 : List Nat := [
  1919_01_02_08_23_40_0_0, 1919_01_09_10_54_45_0_1, 1919_01_16_08_43_44_0_2, 1919_01_24_04_23_49_0_3,
  1919_01_31_23_07_03_0_0, 1919_02_07_18_52_19_0_1, 1919_02_14_23_37_31_0_2, 1919_02_23_01_49_15_0_3,
  1919_03_02_11_12_00_0_0, 1919_03_09_03_14_14_0_1, 1919_03_16_15_40_34_0_2, 1919_03_24_20_35_16_0_3,
  1919_03_31_22_05_36_1_0, 1919_04_07_13_38_43_1_1, 1919_04_15_09_24_52_1_2, 1919_04_23_12_21_53_1_3,
  1919_04_30_06_31_15_1_0, 1919_05_07_00_33_33_1_1, 1919_05_15_02_01_12_1_2, 1919_05_22_23_03_58_1_3,
  1919_05_29_14_12_24_1_0, 1919_06_05_13_21_29_1_1, 1919_06_13_17_28_32_1_2, 1919_06_21_06_32_29_1_3,
  1919_06_27_21_52_51_1_0, 1919_07_05_04_16_45_1_1, 1919_07_13_07_02_50_1_2, 1919_07_20_12_02_56_1_3,
  1919_07_27_06_21_46_1_0, 1919_08_03_21_10_48_1_1, 1919_08_11_18_40_08_1_2, 1919_08_18_16_56_26_1_3,
  1919_08_25_16_36_10_1_0, 1919_09_02_15_20_43_1_1, 1919_09_10_04_55_07_1_2, 1919_09_16_22_32_44_1_3,
  1919_09_24_05_32_35_1_0, 1919_10_02_08_35_51_0_1, 1919_10_09_13_39_20_0_2, 1919_10_16_05_06_10_0_3,
  1919_10_23_20_38_48_0_0, 1919_11_01_01_42_12_0_1, 1919_11_07_23_35_31_0_2, 1919_11_14_15_41_35_0_3,
  1919_11_22_15_19_36_0_0, 1919_11_30_16_46_22_0_1, 1919_12_07_10_03_14_0_2, 1919_12_14_06_03_14_0_3,
  1919_12_22_10_55_03_0_0, 1919_12_30_05_24_10_0_1]

/-- data/astro/astro-1920.json. -/
def astro1920 : List Nat := [
  1920_01_05_21_04_18_0_2, 1920_01_13_00_09_20_0_3, 1920_01_21_05_26_52_0_0, 1920_01_28_15_37_06_0_1,
  1920_02_04_08_41_41_0_2, 1920_02_11_20_49_18_0_3, 1920_02_19_21_35_02_0_0, 1920_02_26_23_48_58_0_1,
  1920_03_04_21_11_49_0_2, 1920_03_12_17_57_08_0_3, 1920_03_20_10_56_09_0_0, 1920_03_27_06_44_57_0_1,
  1920_04_03_11_54_00_1_2, 1920_04_11_14_24_25_1_3, 1920_04_18_22_43_30_1_0, 1920_04_25_14_27_35_1_1,
  1920_05_03_02_46_50_1_2, 1920_05_11_06_51_37_1_3, 1920_05_18_07_25_25_1_0, 1920_05_24_22_07_10_1_1,
  1920_06_01_18_18_14_1_2, 1920_06_09_19_59_10_1_3, 1920_06_16_14_41_24_1_0, 1920_06_23_07_49_14_1_1,
  1920_07_01_09_41_14_1_2, 1920_07_09_06_06_31_1_3, 1920_07_15_21_25_13_1_0, 1920_07_22_20_19_44_1_1,
  1920_07_31_00_20_14_1_2, 1920_08_07_13_51_40_1_3, 1920_08_14_04_43_57_1_0, 1920_08_21_11_50_39_1_1,
  1920_08_29_14_03_47_1_2, 1920_09_05_20_05_54_1_3, 1920_09_12_13_51_11_1_0, 1920_09_20_05_53_49_1_1,
  1920_09_28_02_57_35_1_2, 1920_10_05_01_54_48_1_3, 1920_10_12_01_49_55_1_0, 1920_10_20_01_28_06_1_1,
  1920_10_27_14_09_34_0_2, 1920_11_03_07_36_17_0_3, 1920_11_10_16_05_05_0_0, 1920_11_18_20_13_00_0_1,
  1920_11_26_01_42_30_0_2, 1920_12_02_16_30_13_0_3, 1920_12_10_10_04_07_0_0, 1920_12_18_14_40_39_0_1,
  1920_12_25_12_38_25_0_2]

/-- data/astro/astro-1921.json. -/
def astro1921 : List Nat := [
  1921_01_01_04_35_25_0_3, 1921_01_09_05_26_50_0_0, 1921_01_17_06_30_30_0_1, 1921_01_23_23_07_40_0_2,
  1921_01_30_20_02_07_0_3, 1921_02_08_00_36_50_0_0, 1921_02_15_18_52_37_0_1, 1921_02_22_09_32_02_0_2,
  1921_03_01_14_02_41_0_3, 1921_03_09_18_09_27_0_0, 1921_03_17_03_48_27_0_1, 1921_03_23_20_18_27_0_2,
  1921_03_31_09_13_28_0_3, 1921_04_08_10_05_54_1_0, 1921_04_15_11_11_05_1_1, 1921_04_22_08_48_55_1_2,
  1921_04_30_05_09_50_1_3, 1921_05_07_22_02_15_1_0, 1921_05_14_16_24_36_1_1, 1921_05_21_21_15_14_1_2,
  1921_05_29_22_46_33_1_3, 1921_06_06_07_15_10_1_0, 1921_06_12_21_59_26_1_1, 1921_06_20_10_41_30_1_2,
  1921_06_28_14_18_56_1_3, 1921_07_05_14_36_35_1_0, 1921_07_12_05_15_39_1_1, 1921_07_20_01_08_09_1_2,
  1921_07_28_03_21_20_1_3, 1921_08_03_21_17_45_1_0, 1921_08_10_15_13_22_1_1, 1921_08_18_16_28_53_1_2,
  1921_08_26_13_51_58_1_3, 1921_09_02_04_32_53_1_0, 1921_09_09_04_28_31_1_1, 1921_09_17_08_20_28_1_2,
  1921_09_24_22_17_40_1_3, 1921_10_01_13_25_41_1_0, 1921_10_08_20_10_34_0_1, 1921_10_16_22_59_46_0_2,
  1921_10_24_04_31_14_0_3, 1921_10_30_23_37_58_0_0, 1921_11_07_15_53_16_0_1, 1921_11_15_13_39_03_0_2,
  1921_11_22_11_40_56_0_3, 1921_11_29_13_25_07_0_0, 1921_12_07_13_19_21_0_1, 1921_12_15_02_50_26_0_2,
  1921_12_21_19_54_20_0_3, 1921_12_29_05_39_08_0_0]

/-- data/astro/astro-1922.json. -/
def astro1922 : List Nat := [
  1922_01_06_10_23_12_0_1, 1922_01_13_14_36_26_0_2, 1922_01_20_06_00_12_0_3, 1922_01_27_23_48_11_0_0,
  1922_02_05_04_51_34_0_1, 1922_02_12_01_17_33_0_2, 1922_02_18_18_18_23_0_3, 1922_02_26_18_47_50_0_0,
  1922_03_06_19_20_49_0_1, 1922_03_13_11_14_17_0_2, 1922_03_20_08_43_31_0_3, 1922_03_28_14_03_52_1_0,
  1922_04_05_06_44_21_1_1, 1922_04_11_21_43_02_1_2, 1922_04_19_01_54_49_1_3, 1922_04_27_06_04_49_1_0,
  1922_05_04_13_54_42_1_1, 1922_05_11_07_05_28_1_2, 1922_05_18_19_18_33_1_3, 1922_05_26_19_04_55_1_0,
  1922_06_02_19_09_48_1_1, 1922_06_09_16_57_26_1_2, 1922_06_17_13_04_46_1_3, 1922_06_25_05_20_01_1_0,
  1922_07_01_23_52_19_1_1, 1922_07_09_04_07_01_1_2, 1922_07_17_06_12_08_1_3, 1922_07_24_13_47_16_1_0,
  1922_07_31_05_22_41_1_1, 1922_08_07_17_18_50_1_2, 1922_08_15_21_46_42_1_3, 1922_08_22_21_34_07_1_0,
  1922_08_29_12_56_09_1_1, 1922_09_06_08_47_52_1_2, 1922_09_14_11_20_39_1_3, 1922_09_21_05_38_06_1_0,
  1922_09_27_23_40_38_1_1, 1922_10_06_01_59_13_1_2, 1922_10_13_21_55_43_0_3, 1922_10_20_13_39_53_0_0,
  1922_10_27_13_25_57_0_1, 1922_11_04_18_37_22_0_2, 1922_11_12_07_52_43_0_3, 1922_11_19_00_06_22_0_0,
  1922_11_26_08_14_32_0_1, 1922_12_04_11_24_27_0_2, 1922_12_11_16_40_56_0_3, 1922_12_18_12_20_23_0_0,
  1922_12_26_05_51_59_0_1]

/-- data/astro/astro-1923.json. -/
def astro1923 : List Nat := [
  1923_01_03_02_34_17_0_2, 1923_01_10_00_55_08_0_3, 1923_01_17_02_41_47_0_0, 1923_01_25_03_58_06_0_1,
  1923_02_01_15_53_56_0_2, 1923_02_08_09_16_44_0_3, 1923_02_15_19_08_04_0_0, 1923_02_24_00_05_45_0_1,
  1923_03_03_03_24_01_0_2, 1923_03_09_18_31_48_0_3, 1923_03_17_12_51_53_0_0, 1923_03_25_16_41_00_0_1,
  1923_04_01_13_09_31_0_2, 1923_04_08_05_23_08_0_3, 1923_04_16_06_28_55_0_0, 1923_04_24_06_19_15_1_1,
  1923_04_30_22_29_16_1_2, 1923_05_07_19_18_23_1_3, 1923_05_15_23_38_39_1_0, 1923_05_23_15_24_11_1_1,
  1923_05_30_06_05_58_1_2, 1923_06_06_10_18_44_1_3, 1923_06_14_13_41_47_1_0, 1923_06_21_21_45_45_1_1,
  1923_06_28_14_03_11_1_2, 1923_07_06_02_55_56_1_3, 1923_07_14_01_44_11_1_0, 1923_07_21_02_32_29_1_1,
  1923_07_27_23_31_44_1_2, 1923_08_04_20_22_29_1_3, 1923_08_12_12_16_01_1_0, 1923_08_19_07_08_07_1_1,
  1923_08_26_11_29_03_1_2, 1923_09_03_13_48_34_1_3, 1923_09_10_21_52_05_1_0, 1923_09_17_12_05_17_0_1,
  1923_09_25_01_16_24_0_2, 1923_10_03_05_31_02_0_3, 1923_10_10_06_05_08_0_0, 1923_10_16_20_54_16_0_1,
  1923_10_24_18_27_33_0_2, 1923_11_01_20_50_36_0_3, 1923_11_08_15_27_08_0_0, 1923_11_15_09_41_06_0_1,
  1923_11_23_12_59_17_0_2, 1923_12_01_10_10_15_0_3, 1923_12_08_01_31_16_0_0, 1923_12_15_02_37_06_0_1,
  1923_12_23_07_34_13_0_2, 1923_12_30_21_07_34_0_3]

/-- data/astro/astro-1924.json. -/
def astro1924 : List Nat := [
  1924_01_06_12_49_07_0_0, 1924_01_13_22_43_08_0_1, 1924_01_22_00_57_43_0_2, 1924_01_29_05_53_16_0_3,
  1924_02_05_01_39_59_0_0, 1924_02_12_20_08_13_0_1, 1924_02_20_16_08_17_0_2, 1924_02_27_13_15_42_0_3,
  1924_03_05_15_59_12_0_0, 1924_03_13_16_50_44_0_1, 1924_03_21_04_31_05_0_2, 1924_03_27_20_24_47_0_3,
  1924_04_04_07_18_33_0_0, 1924_04_12_11_12_35_0_1, 1924_04_19_15_11_11_1_2, 1924_04_26_05_28_20_1_3,
  1924_05_04_00_00_44_1_0, 1924_05_12_03_13_53_1_1, 1924_05_18_22_52_25_1_2, 1924_05_25_15_16_07_1_3,
  1924_06_02_15_34_04_1_0, 1924_06_10_14_36_57_1_1, 1924_06_17_05_41_15_1_2, 1924_06_24_03_15_37_1_3,
  1924_07_02_06_34_40_1_0, 1924_07_09_22_46_15_1_1, 1924_07_16_12_48_43_1_2, 1924_07_23_17_35_55_1_3,
  1924_07_31_20_41_14_1_0, 1924_08_08_04_41_41_1_1, 1924_08_14_21_18_33_1_2, 1924_08_22_10_11_27_1_3,
  1924_08_30_09_35_59_1_0, 1924_09_06_09_46_02_1_1, 1924_09_13_07_59_23_1_2, 1924_09_21_03_37_11_0_3,
  1924_09_28_20_14_55_0_0, 1924_10_05_14_30_35_0_1, 1924_10_12_20_20_57_0_2, 1924_10_20_22_56_22_0_3,
  1924_10_28_06_56_16_0_0, 1924_11_03_22_19_12_0_1, 1924_11_11_12_30_52_0_2, 1924_11_19_17_39_40_0_3,
  1924_11_26_17_15_18_0_0, 1924_12_03_09_10_30_0_1, 1924_12_11_07_03_55_0_2, 1924_12_19_10_11_48_0_3,
  1924_12_26_03_46_17_0_0]

/-- data/astro/astro-1925.json. -/
def astro1925 : List Nat := [
  1925_01_01_23_24_55_0_1, 1925_01_10_02_47_28_0_2, 1925_01_17_23_32_52_0_3, 1925_01_24_14_45_58_0_0,
  1925_01_31_16_42_21_0_1, 1925_02_08_21_49_18_0_2, 1925_02_16_09_40_55_0_3, 1925_02_23_02_13_11_0_0,
  1925_03_02_12_06_43_0_1, 1925_03_10_14_22_10_0_2, 1925_03_17_17_21_15_0_3, 1925_03_24_14_04_29_0_0,
  1925_04_01_08_12_32_0_1, 1925_04_09_03_34_36_0_2, 1925_04_15_23_40_11_0_3, 1925_04_23_03_29_33_1_0,
  1925_05_01_04_20_16_1_1, 1925_05_08_14_44_07_1_2, 1925_05_15_06_46_27_1_3, 1925_05_22_16_49_33_1_0,
  1925_05_30_21_04_51_1_1, 1925_06_06_22_49_05_1_2, 1925_06_13_13_44_47_1_3, 1925_06_21_07_17_53_1_0,
  1925_06_29_10_43_30_1_1, 1925_07_06_05_54_56_1_2, 1925_07_12_22_35_12_1_3, 1925_07_20_22_40_27_1_0,
  1925_07_28_21_23_15_1_1, 1925_08_04_12_59_30_1_2, 1925_08_11_10_11_53_1_3, 1925_08_19_14_14_46_1_0,
  1925_08_27_05_46_32_1_1, 1925_09_02_20_52_57_1_2, 1925_09_10_01_12_45_1_3, 1925_09_18_05_12_06_1_0,
  1925_09_25_12_51_20_1_1, 1925_10_02_06_22_29_1_2, 1925_10_09_18_35_08_0_3, 1925_10_17_18_05_13_0_0,
  1925_10_24_18_38_31_0_1, 1925_10_31_17_16_01_0_2, 1925_11_08_15_13_51_0_3, 1925_11_16_06_57_19_0_0,
  1925_11_23_02_06_40_0_1, 1925_11_30_08_10_56_0_2, 1925_12_08_12_11_22_0_3, 1925_12_15_19_04_57_0_0,
  1925_12_22_11_09_32_0_1, 1925_12_30_02_01_52_0_2]

/-- data/astro/astro-1926.json. -/
def astro1926 : List Nat := [
  1926_01_07_07_23_27_0_3, 1926_01_14_06_35_04_0_0, 1926_01_20_22_31_35_0_1, 1926_01_28_21_35_26_0_2,
  1926_02_05_23_25_52_0_3, 1926_02_12_17_21_07_0_0, 1926_02_19_12_36_39_0_1, 1926_02_27_16_51_10_0_2,
  1926_03_07_11_49_41_0_3, 1926_03_14_03_21_23_0_0, 1926_03_21_05_11_58_0_1, 1926_03_29_10_01_30_0_2,
  1926_04_05_20_50_13_0_3, 1926_04_12_12_57_56_0_0, 1926_04_20_00_22_22_1_1, 1926_04_28_01_18_06_1_2,
  1926_05_05_04_13_39_1_3, 1926_05_11_23_56_54_1_0, 1926_05_19_18_47_23_1_1, 1926_05_27_12_49_57_1_2,
  1926_06_03_09_09_35_1_3, 1926_06_10_11_09_24_1_0, 1926_06_18_12_13_08_1_1, 1926_06_25_22_13_59_1_2,
  1926_07_02_14_03_18_1_3, 1926_07_10_00_07_13_1_0, 1926_07_18_03_55_13_1_1, 1926_07_25_06_14_13_1_2,
  1926_07_31_20_25_36_1_3, 1926_08_08_14_48_59_1_0, 1926_08_16_17_39_08_1_1, 1926_08_23_13_38_10_1_2,
  1926_08_30_05_40_42_1_3, 1926_09_07_06_44_39_1_0, 1926_09_15_05_26_51_1_1, 1926_09_21_21_19_01_1_2,
  1926_09_28_18_47_44_1_3, 1926_10_06_22_12_47_0_0, 1926_10_14_14_27_45_0_1, 1926_10_21_05_14_58_0_2,
  1926_10_28_10_56_48_0_3, 1926_11_05_14_33_59_0_0, 1926_11_12_23_01_47_0_1, 1926_11_19_16_20_59_0_2,
  1926_11_27_07_15_30_0_3, 1926_12_05_06_11_25_0_0, 1926_12_12_06_47_53_0_1, 1926_12_19_06_09_08_0_2,
  1926_12_27_05_00_25_0_3]

/-- data/astro/astro-1927.json. -/
def astro1927 : List Nat := [
  1927_01_03_20_28_07_0_0, 1927_01_10_14_44_30_0_1, 1927_01_17_22_27_18_0_2, 1927_01_26_02_07_36_0_3,
  1927_02_02_08_54_50_0_0, 1927_02_08_23_54_50_0_1, 1927_02_16_16_18_17_0_2, 1927_02_24_20_44_42_0_3,
  1927_03_03_19_25_41_0_0, 1927_03_10_11_03_18_0_1, 1927_03_18_10_24_18_0_2, 1927_03_26_11_36_31_0_3,
  1927_04_02_04_25_21_0_0, 1927_04_09_00_20_12_0_1, 1927_04_17_04_35_35_1_2, 1927_04_24_23_21_28_1_3,
  1927_05_01_13_40_55_1_0, 1927_05_08_16_25_53_1_1, 1927_05_16_20_03_11_1_2, 1927_05_24_06_33_53_1_3,
  1927_05_30_22_06_53_1_0, 1927_06_07_08_47_41_1_1, 1927_06_15_09_20_05_1_2, 1927_06_22_11_29_23_1_3,
  1927_06_29_07_32_46_1_0, 1927_07_07_01_52_28_1_1, 1927_07_14_20_23_26_1_2, 1927_07_21_15_43_44_1_3,
  1927_07_28_18_36_54_1_0, 1927_08_05_19_05_45_1_1, 1927_08_13_05_38_23_1_2, 1927_08_19_20_55_09_1_3,
  1927_08_27_07_45_34_1_0, 1927_09_04_11_45_03_1_1, 1927_09_11_13_54_59_1_2, 1927_09_18_04_30_38_1_3,
  1927_09_25_23_10_39_1_0, 1927_10_04_02_01_35_0_1, 1927_10_10_21_15_36_0_2, 1927_10_17_14_32_36_0_3,
  1927_10_25_15_37_30_0_0, 1927_11_02_15_15_32_0_1, 1927_11_09_06_36_48_0_2, 1927_11_16_05_28_48_0_3,
  1927_11_24_10_09_20_0_0, 1927_12_02_02_14_42_0_1, 1927_12_08_17_32_22_0_2, 1927_12_16_00_04_46_0_3,
  1927_12_24_04_13_25_0_0]

/-- data/astro/astro-1928.json. -/
def astro1928 : List Nat := [
  1928_01_07_06_07_47_0_2, 1928_01_14_21_15_49_0_3, 1928_01_22_20_19_19_0_0, 1928_01_29_19_25_49_0_1,
  1928_02_05_20_10_48_0_2, 1928_02_13_19_07_17_0_3, 1928_02_21_09_41_42_0_0, 1928_02_28_03_21_05_0_1,
  1928_03_06_11_26_35_0_2, 1928_03_14_15_21_40_0_3, 1928_03_21_20_30_08_0_0, 1928_03_28_11_54_28_0_1,
  1928_04_05_03_37_53_0_2, 1928_04_13_08_09_44_0_3, 1928_04_20_05_25_30_0_0, 1928_04_26_22_41_27_1_1,
  1928_05_04_21_11_25_1_2, 1928_05_12_21_50_29_1_3, 1928_05_19_14_14_34_1_0, 1928_05_26_10_11_01_1_1,
  1928_06_03_13_13_27_1_2, 1928_06_11_06_50_39_1_3, 1928_06_17_21_42_21_1_0, 1928_06_24_23_47_03_1_1,
  1928_07_03_03_49_10_1_2, 1928_07_10_13_15_51_1_3, 1928_07_17_05_35_54_1_0, 1928_07_24_15_38_10_1_1,
  1928_08_01_16_31_47_1_2, 1928_08_08_18_24_30_1_3, 1928_08_15_14_48_47_1_0, 1928_08_23_09_21_28_1_1,
  1928_08_31_03_35_36_1_2, 1928_09_06_23_36_24_1_3, 1928_09_14_02_20_01_1_0, 1928_09_22_03_57_21_1_1,
  1928_09_29_13_44_12_1_2, 1928_10_06_06_07_59_1_3, 1928_10_13_15_56_17_0_0, 1928_10_21_21_06_03_0_1,
  1928_10_28_22_44_50_0_2, 1928_11_04_14_08_23_0_3, 1928_11_12_09_36_09_0_0, 1928_11_20_13_36_02_0_1,
  1928_11_27_09_06_24_0_2, 1928_12_04_02_33_07_0_3, 1928_12_12_05_06_52_0_0, 1928_12_20_03_43_32_0_1,
  1928_12_26_19_55_05_0_2]

/-- data/astro/astro-1929.json. -/
def astro1929 : List Nat := [
  1929_01_02_18_45_58_0_3, 1929_01_11_00_29_03_0_0, 1929_01_18_15_15_03_0_1, 1929_01_25_07_09_19_0_2,
  1929_02_01_14_11_58_0_3, 1929_02_09_17_56_29_0_0, 1929_02_17_00_22_46_0_1, 1929_02_23_18_58_57_0_2,
  1929_03_03_11_10_22_0_3, 1929_03_11_08_38_12_0_0, 1929_03_18_07_42_15_0_1, 1929_03_25_07_46_41_0_2,
  1929_04_02_07_30_14_0_3, 1929_04_09_20_34_02_0_0, 1929_04_16_14_10_09_0_1, 1929_04_23_22_47_57_1_2,
  1929_05_02_02_27_05_1_3, 1929_05_09_07_08_29_1_0, 1929_05_15_21_56_49_1_1, 1929_05_23_13_50_27_1_2,
  1929_05_31_17_14_21_1_3, 1929_06_07_14_57_03_1_0, 1929_06_14_06_14_43_1_1, 1929_06_22_05_15_46_1_2,
  1929_06_30_04_54_43_1_3, 1929_07_06_21_47_16_1_0, 1929_07_13_17_04_42_1_1, 1929_07_21_20_21_36_1_2,
  1929_07_29_13_56_41_1_3, 1929_08_05_04_40_12_1_0, 1929_08_12_07_00_27_1_1, 1929_08_20_10_43_15_1_2,
  1929_08_27_21_02_27_1_3, 1929_09_03_12_47_07_1_0, 1929_09_10_23_55_47_1_1, 1929_09_19_00_16_45_1_2,
  1929_09_26_03_07_40_1_3, 1929_10_02_23_18_31_1_0, 1929_10_10_18_04_06_0_1, 1929_10_18_12_06_46_0_2,
  1929_10_25_08_22_21_0_3, 1929_11_01_12_00_39_0_0, 1929_11_09_14_09_46_0_1, 1929_11_17_00_14_43_0_2,
  1929_11_23_16_05_30_0_3, 1929_12_01_04_48_54_0_0, 1929_12_09_09_42_26_0_1, 1929_12_16_11_38_27_0_2,
  1929_12_23_02_28_30_0_3]

/-- data/astro/astro-1930.json. -/
def astro1930 : List Nat := [
  1930_01_08_03_11_19_0_1, 1930_01_14_22_21_11_0_2, 1930_01_21_16_07_54_0_3, 1930_01_29_19_08_06_0_0,
  1930_02_06_17_25_54_0_1, 1930_02_13_08_39_04_0_2, 1930_02_20_08_45_03_0_3, 1930_02_28_13_33_48_0_0,
  1930_03_08_04_00_29_0_1, 1930_03_14_18_59_00_0_2, 1930_03_22_03_13_30_0_3, 1930_03_30_05_48_03_0_0,
  1930_04_06_11_25_16_0_1, 1930_04_13_06_49_06_1_2, 1930_04_20_23_10_15_1_3, 1930_04_28_20_10_14_1_0,
  1930_05_05_17_53_32_1_1, 1930_05_12_18_29_50_1_2, 1930_05_20_17_24_01_1_3, 1930_05_28_06_37_50_1_0,
  1930_06_03_22_56_41_1_1, 1930_06_11_07_12_15_1_2, 1930_06_19_10_02_46_1_3, 1930_06_26_14_47_13_1_0,
  1930_07_03_05_03_18_1_1, 1930_07_10_21_01_38_1_2, 1930_07_19_00_30_57_1_3, 1930_07_25_21_42_10_1_0,
  1930_08_01_13_26_25_1_1, 1930_08_09_11_58_08_1_2, 1930_08_17_12_31_29_1_3, 1930_08_24_04_36_57_1_0,
  1930_08_31_00_56_13_1_1, 1930_09_08_03_48_25_1_2, 1930_09_15_22_12_56_1_3, 1930_09_22_12_41_16_1_0,
  1930_09_29_15_57_02_1_1, 1930_10_07_18_56_20_0_2, 1930_10_15_05_12_00_0_3, 1930_10_21_21_47_24_0_0,
  1930_10_29_09_21_53_0_1, 1930_11_06_10_28_56_0_2, 1930_11_13_12_27_36_0_3, 1930_11_20_10_21_28_0_0,
  1930_11_28_06_18_26_0_1, 1930_12_06_00_40_41_0_2, 1930_12_12_20_07_29_0_3, 1930_12_20_01_24_26_0_0,
  1930_12_28_03_59_24_0_1]

/-- data/astro/astro-1931.json. -/
def astro1931 : List Nat := [
  1931_01_04_13_15_36_0_2, 1931_01_11_05_10_15_0_3, 1931_01_18_18_36_22_0_0, 1931_01_27_00_05_36_0_1,
  1931_02_03_00_26_29_0_2, 1931_02_09_16_10_25_0_3, 1931_02_17_13_11_23_0_0, 1931_02_25_16_41_43_0_1,
  1931_03_04_10_36_21_0_2, 1931_03_11_05_15_45_0_3, 1931_03_19_07_51_05_0_0, 1931_03_27_05_03_17_0_1,
  1931_04_02_20_05_13_0_2, 1931_04_09_20_16_00_0_3, 1931_04_18_01_00_27_0_0, 1931_04_25_14_38_45_1_1,
  1931_05_02_06_13_32_1_2, 1931_05_09_13_49_23_1_3, 1931_05_17_16_28_44_1_0, 1931_05_24_20_37_54_1_1,
  1931_05_31_15_32_09_1_2, 1931_06_08_07_19_30_1_3, 1931_06_16_04_01_57_1_0, 1931_06_23_01_22_58_1_1,
  1931_06_30_01_46_14_1_2, 1931_07_08_00_52_31_1_3, 1931_07_15_13_19_41_1_0, 1931_07_22_06_16_31_1_1,
  1931_07_29_13_46_56_1_2, 1931_08_06_17_28_18_1_3, 1931_08_13_21_26_41_1_0, 1931_08_20_12_37_19_1_1,
  1931_08_28_04_09_28_1_2, 1931_09_05_08_21_36_1_3, 1931_09_12_05_26_06_1_0, 1931_09_18_21_37_59_1_1,
  1931_09_26_20_45_44_1_2, 1931_10_04_20_15_29_0_3, 1931_10_11_13_05_40_0_0, 1931_10_18_09_20_05_0_1,
  1931_10_26_13_35_13_0_2, 1931_11_03_07_18_03_0_3, 1931_11_09_22_55_40_0_0, 1931_11_17_02_13_38_0_1,
  1931_11_25_07_11_23_0_2, 1931_12_02_16_51_12_0_3, 1931_12_09_10_17_01_0_0, 1931_12_16_22_43_04_0_1,
  1931_12_24_23_25_05_0_2]

/-- data/astro/astro-1932.json. -/
def astro1932 : List Nat := [
  1932_01_01_01_24_02_0_3, 1932_01_07_23_30_07_0_0, 1932_01_15_20_54_38_0_1, 1932_01_23_13_45_34_0_2,
  1932_01_30_09_33_27_0_3, 1932_02_06_14_46_45_0_0, 1932_02_14_18_15_30_0_1, 1932_02_22_02_08_31_0_2,
  1932_02_28_18_04_24_0_3, 1932_03_07_07_45_47_0_0, 1932_03_15_12_41_06_0_1, 1932_03_22_12_37_58_0_2,
  1932_03_29_03_44_48_0_3, 1932_04_06_01_22_15_0_0, 1932_04_14_03_15_06_0_1, 1932_04_20_22_26_52_1_2,
  1932_04_27_16_14_59_1_3, 1932_05_05_19_12_31_1_0, 1932_05_13_15_01_39_1_1, 1932_05_20_06_08_02_1_2,
  1932_05_27_05_55_09_1_3, 1932_06_04_10_16_36_1_0, 1932_06_11_22_39_28_1_1, 1932_06_18_13_37_33_1_2,
  1932_06_25_21_36_12_1_3, 1932_07_03_23_19_39_1_0, 1932_07_11_04_07_31_1_1, 1932_07_17_22_05_50_1_2,
  1932_07_25_14_41_46_1_3, 1932_08_02_10_41_21_1_0, 1932_08_09_08_41_35_1_1, 1932_08_16_08_41_01_1_2,
  1932_08_24_08_22_02_1_3, 1932_08_31_20_53_50_1_0, 1932_09_07_13_50_06_1_1, 1932_09_14_22_05_56_1_2,
  1932_09_23_01_48_04_1_3, 1932_09_30_06_28_43_1_0, 1932_10_06_20_05_57_0_1, 1932_10_14_13_18_11_0_2,
  1932_10_22_17_14_54_0_3, 1932_10_29_14_55_16_0_0, 1932_11_05_06_50_14_0_1, 1932_11_13_07_28_48_0_2,
  1932_11_21_07_58_30_0_3, 1932_11_28_00_43_12_0_0, 1932_12_04_21_44_04_0_1, 1932_12_13_02_21_44_0_2,
  1932_12_20_20_22_08_0_3, 1932_12_27_11_23_18_0_0]

/-- data/astro/astro-1933.json. -/
def astro1933 : List Nat := [
  1933_01_03_16_22_16_0_1, 1933_01_11_20_36_24_0_2, 1933_01_19_06_15_35_0_3, 1933_01_25_23_21_17_0_0,
  1933_02_02_13_15_17_0_1, 1933_02_10_13_01_33_0_2, 1933_02_17_14_08_53_0_3, 1933_02_24_12_45_51_0_0,
  1933_03_04_10_23_29_0_1, 1933_03_12_02_47_06_0_2, 1933_03_18_21_05_15_0_3, 1933_03_26_03_22_15_0_0,
  1933_04_03_05_57_22_0_1, 1933_04_10_14_38_56_1_2, 1933_04_17_05_18_19_1_3, 1933_04_24_19_40_02_1_0,
  1933_05_02_23_40_01_1_1, 1933_05_09_23_05_10_1_2, 1933_05_16_13_51_09_1_3, 1933_05_24_11_08_14_1_0,
  1933_06_01_12_53_39_1_1, 1933_06_08_06_05_16_1_2, 1933_06_15_00_26_02_1_3, 1933_06_23_02_22_53_1_0,
  1933_06_30_22_41_14_1_1, 1933_07_07_12_51_00_1_2, 1933_07_14_13_24_15_1_3, 1933_07_22_17_03_04_1_0,
  1933_07_30_05_44_18_1_1, 1933_08_05_20_31_32_1_2, 1933_08_13_04_50_18_1_3, 1933_08_21_06_47_11_1_0,
  1933_08_28_11_13_45_1_1, 1933_09_04_06_03_52_1_2, 1933_09_11_22_31_25_1_3, 1933_09_19_19_19_39_1_0,
  1933_09_26_16_36_32_1_1, 1933_10_03_18_06_52_1_2, 1933_10_11_16_47_00_0_3, 1933_10_19_05_43_12_0_0,
  1933_10_25_22_20_49_0_1, 1933_11_02_07_58_38_0_2, 1933_11_10_12_18_40_0_3, 1933_11_17_16_22_39_0_0,
  1933_11_24_07_38_26_0_1, 1933_12_02_01_30_47_0_2, 1933_12_10_06_23_50_0_3, 1933_12_17_02_52_34_0_0,
  1933_12_23_20_08_21_0_1]

/-- data/astro/astro-1934.json. -/
def astro1934 : List Nat := [
  1934_01_08_21_35_50_0_3, 1934_01_15_13_37_54_0_0, 1934_01_22_11_49_45_0_1, 1934_01_30_16_31_38_0_2,
  1934_02_07_09_21_25_0_3, 1934_02_14_00_44_55_0_0, 1934_02_21_06_04_57_0_1, 1934_03_01_10_26_52_0_2,
  1934_03_08_18_05_38_0_3, 1934_03_15_12_10_19_0_0, 1934_03_23_01_45_35_0_1, 1934_03_31_01_16_44_0_2,
  1934_04_07_00_48_48_0_3, 1934_04_13_23_59_03_0_0, 1934_04_21_21_21_22_0_1, 1934_04_29_13_47_18_1_2,
  1934_05_06_07_41_40_1_3, 1934_05_13_13_31_45_1_0, 1934_05_21_16_20_08_1_1, 1934_05_28_22_42_40_1_2,
  1934_06_04_13_53_27_1_3, 1934_06_12_03_12_30_1_0, 1934_06_20_07_36_51_1_1, 1934_06_27_06_08_56_1_2,
  1934_07_03_21_28_51_1_3, 1934_07_11_18_06_16_1_0, 1934_07_19_19_52_53_1_1, 1934_07_26_13_09_00_1_2,
  1934_08_02_07_27_45_1_3, 1934_08_10_09_45_15_1_0, 1934_08_18_05_32_40_1_1, 1934_08_24_20_36_21_1_2,
  1934_08_31_20_40_29_1_3, 1934_09_09_01_19_11_1_0, 1934_09_16_13_25_27_1_1, 1934_09_23_05_17_59_1_2,
  1934_09_30_13_29_34_1_3, 1934_10_08_15_03_30_0_0, 1934_10_15_19_28_36_0_1, 1934_10_22_14_59_43_0_2,
  1934_10_30_08_21_45_0_3, 1934_11_07_04_42_05_0_0, 1934_11_14_02_39_21_0_1, 1934_11_21_04_24_59_0_2,
  1934_11_29_05_38_36_0_3, 1934_12_06_17_23_48_0_0, 1934_12_13_10_51_57_0_1, 1934_12_20_20_52_44_0_2,
  1934_12_29_02_08_14_0_3]

/-- data/astro/astro-1935.json. -/
def astro1935 : List Nat := [
  1935_01_05_05_19_39_0_0, 1935_01_11_20_55_10_0_1, 1935_01_19_15_43_57_0_2, 1935_01_27_19_59_13_0_3,
  1935_02_03_16_27_33_0_0, 1935_02_10_09_25_01_0_1, 1935_02_18_11_16_59_0_2, 1935_02_26_10_14_38_0_3,
  1935_03_05_02_41_21_0_0, 1935_03_12_00_30_45_0_1, 1935_03_20_05_32_14_0_2, 1935_03_27_20_50_46_0_3,
  1935_04_03_12_12_06_0_0, 1935_04_10_17_42_07_0_1, 1935_04_18_22_11_11_1_2, 1935_04_26_05_20_59_1_3,
  1935_05_02_22_38_01_1_0, 1935_05_10_12_53_33_1_1, 1935_05_18_10_58_30_1_2, 1935_05_25_10_45_01_1_3,
  1935_06_01_08_53_30_1_0, 1935_06_09_06_48_36_1_1, 1935_06_16_21_21_25_1_2, 1935_06_23_15_22_23_1_3,
  1935_06_30_20_45_38_1_0, 1935_07_08_23_28_25_1_1, 1935_07_16_06_01_44_1_2, 1935_07_22_20_43_25_1_3,
  1935_07_30_10_33_16_1_0, 1935_08_07_14_23_40_1_1, 1935_08_14_13_44_31_1_2, 1935_08_21_04_18_32_1_3,
  1935_08_29_02_00_47_1_0, 1935_09_06_03_26_46_1_1, 1935_09_12_21_18_52_1_2, 1935_09_19_15_23_30_1_3,
  1935_09_27_18_29_29_1_0, 1935_10_05_14_39_44_1_1, 1935_10_12_04_39_09_0_2, 1935_10_19_05_36_22_0_3,
  1935_10_27_10_14_56_0_0, 1935_11_03_23_11_43_0_1, 1935_11_10_14_41_24_0_2, 1935_11_18_00_35_17_0_3,
  1935_11_26_02_35_01_0_0, 1935_12_03_07_27_33_0_1, 1935_12_10_03_09_35_0_2, 1935_12_17_21_57_05_0_3,
  1935_12_25_17_48_17_0_0]

/-- data/astro/astro-1936.json. -/
def astro1936 : List Nat := [
  1936_01_01_15_14_30_0_1, 1936_01_08_18_13_40_0_2, 1936_01_16_19_41_36_0_3, 1936_01_24_07_17_02_0_0,
  1936_01_30_23_35_21_0_1, 1936_02_07_11_17_31_0_2, 1936_02_15_15_46_15_0_3, 1936_02_22_18_41_42_0_0,
  1936_02_29_09_27_21_0_1, 1936_03_08_05_12_19_0_2, 1936_03_16_08_35_33_0_3, 1936_03_23_04_13_38_0_0,
  1936_03_29_21_21_05_0_1, 1936_04_06_22_45_33_0_2, 1936_04_14_21_21_23_0_3, 1936_04_21_13_33_07_1_0,
  1936_04_28_12_14_35_1_1, 1936_05_06_16_01_00_1_2, 1936_05_14_07_12_00_1_3, 1936_05_20_21_35_17_1_0,
  1936_05_28_03_44_42_1_1, 1936_06_05_06_22_48_1_2, 1936_06_12_13_05_01_1_3, 1936_06_19_06_15_23_1_0,
  1936_06_26_20_22_14_1_1, 1936_07_04_18_35_32_1_2, 1936_07_11_17_28_14_1_3, 1936_07_18_16_19_32_1_0,
  1936_07_26_13_36_41_1_1, 1936_08_03_04_48_43_1_2, 1936_08_09_22_00_13_1_3, 1936_08_17_04_21_25_1_0,
  1936_08_25_06_50_09_1_1, 1936_09_01_13_38_54_1_2, 1936_09_08_04_15_21_1_3, 1936_09_15_18_41_43_1_0,
  1936_09_23_23_13_05_1_1, 1936_09_30_22_02_21_1_2, 1936_10_07_12_29_58_0_3, 1936_10_15_10_20_50_0_0,
  1936_10_23_12_53_40_0_1, 1936_10_30_05_58_46_0_2, 1936_11_06_01_29_37_0_3, 1936_11_14_04_42_15_0_0,
  1936_11_22_01_18_31_0_1, 1936_11_28_16_12_23_0_2, 1936_12_05_18_20_36_0_3, 1936_12_13_23_24_39_0_0,
  1936_12_21_11_29_10_0_1, 1936_12_28_03_59_52_0_2]

/-- data/astro/astro-1937.json. -/
def astro1937 : List Nat := [
  1937_01_04_14_22_54_0_3, 1937_01_12_16_46_37_0_0, 1937_01_19_20_01_25_0_1, 1937_01_26_17_14_24_0_2,
  1937_02_03_12_05_18_0_3, 1937_02_11_07_34_23_0_0, 1937_02_18_03_49_06_0_1, 1937_02_25_07_42_04_0_2,
  1937_03_05_09_18_01_0_3, 1937_03_12_19_31_53_0_0, 1937_03_19_11_45_20_0_1, 1937_03_26_23_11_12_0_2,
  1937_04_04_03_53_49_0_3, 1937_04_11_05_10_18_0_0, 1937_04_17_20_33_32_0_1, 1937_04_25_16_22_55_1_2,
  1937_05_03_19_37_02_1_3, 1937_05_10_14_18_09_1_0, 1937_05_17_07_48_58_1_1, 1937_05_25_08_37_31_1_2,
  1937_06_02_06_23_32_1_3, 1937_06_08_21_43_26_1_0, 1937_06_15_20_02_34_1_1, 1937_06_24_00_00_01_1_2,
  1937_07_01_14_02_33_1_3, 1937_07_08_05_12_55_1_0, 1937_07_15_10_36_24_1_1, 1937_07_23_13_46_30_1_2,
  1937_07_30_19_46_57_1_3, 1937_08_06_13_37_03_1_0, 1937_08_14_03_28_03_1_1, 1937_08_22_01_48_13_1_2,
  1937_08_29_00_55_16_1_3, 1937_09_04_23_52_59_1_0, 1937_09_12_21_56_27_1_1, 1937_09_20_12_33_40_1_2,
  1937_09_27_06_44_47_1_3, 1937_10_04_11_57_02_0_0, 1937_10_12_15_46_09_0_1, 1937_10_19_21_48_43_0_2,
  1937_10_26_13_27_29_0_3, 1937_11_03_04_15_51_0_0, 1937_11_11_09_32_56_0_1, 1937_11_18_08_10_24_0_2,
  1937_11_25_00_05_42_0_3, 1937_12_02_23_11_11_0_0, 1937_12_11_01_12_21_0_1, 1937_12_17_18_52_37_0_2,
  1937_12_24_14_20_59_0_3]

/-- data/astro/astro-1938.json. -/
def astro1938 : List Nat := [
  1938_01_01_18_58_29_0_0, 1938_01_09_14_12_31_0_1, 1938_01_16_05_53_05_0_2, 1938_01_23_08_10_04_0_3,
  1938_01_31_13_35_29_0_0, 1938_02_08_00_31_57_0_1, 1938_02_14_17_14_04_0_2, 1938_02_22_04_24_48_0_3,
  1938_03_02_05_40_48_0_0, 1938_03_09_08_35_06_0_1, 1938_03_16_05_14_45_0_2, 1938_03_24_01_06_20_0_3,
  1938_03_31_18_52_45_0_0, 1938_04_07_15_10_10_0_1, 1938_04_14_19_20_30_1_2, 1938_04_22_21_14_55_1_3,
  1938_04_30_06_28_19_1_0, 1938_05_06_22_24_07_1_1, 1938_05_14_09_38_52_1_2, 1938_05_22_13_36_37_1_3,
  1938_05_29_14_59_57_1_0, 1938_06_05_05_32_32_1_1, 1938_06_13_00_47_17_1_2, 1938_06_21_02_52_38_1_3,
  1938_06_27_22_10_08_1_0, 1938_07_04_14_46_46_1_1, 1938_07_12_16_05_12_1_2, 1938_07_20_13_19_36_1_3,
  1938_07_27_04_53_40_1_0, 1938_08_03_02_59_06_1_1, 1938_08_11_06_57_43_1_2, 1938_08_18_21_31_02_1_3,
  1938_08_25_12_17_13_1_0, 1938_09_01_18_26_52_1_1, 1938_09_09_21_09_07_1_2, 1938_09_17_04_12_48_1_3,
  1938_09_23_21_33_00_1_0, 1938_10_01_12_43_35_1_1, 1938_10_09_09_38_05_0_2, 1938_10_16_09_25_06_0_3,
  1938_10_23_08_41_46_0_0, 1938_10_31_07_44_21_0_1, 1938_11_07_22_24_20_0_2, 1938_11_14_16_21_27_0_3,
  1938_11_22_00_05_14_0_0, 1938_11_30_04_00_17_0_1, 1938_12_07_10_22_50_0_2, 1938_12_14_01_18_14_0_3,
  1938_12_21_18_07_41_0_0, 1938_12_29_22_54_18_0_1]

/-- data/astro/astro-1939.json. -/
def astro1939 : List Nat := [
  1939_01_05_21_30_10_0_2, 1939_01_12_13_11_48_0_3, 1939_01_20_13_27_18_0_0, 1939_01_28_14_59_49_0_1,
  1939_02_04_07_54_52_0_2, 1939_02_11_04_12_20_0_3, 1939_02_19_08_28_32_0_0, 1939_02_27_03_25_31_0_1,
  1939_03_05_18_00_14_0_2, 1939_03_12_21_36_52_0_3, 1939_03_21_01_49_33_0_0, 1939_03_28_12_14_51_0_1,
  1939_04_04_04_17_19_0_2, 1939_04_11_16_11_03_0_3, 1939_04_19_17_35_11_1_0, 1939_04_26_19_23_50_1_1,
  1939_05_03_16_14_11_1_2, 1939_05_11_11_40_41_1_3, 1939_05_19_05_24_40_1_0, 1939_05_26_00_19_14_1_1,
  1939_06_02_04_09_50_1_2, 1939_06_10_05_07_52_1_3, 1939_06_17_14_36_21_1_0, 1939_06_24_05_34_31_1_1,
  1939_07_01_17_15_22_1_2, 1939_07_09_20_50_05_1_3, 1939_07_16_22_02_17_1_0, 1939_07_23_12_33_27_1_1,
  1939_07_31_07_36_29_1_2, 1939_08_08_10_18_39_1_3, 1939_08_15_04_53_11_1_0, 1939_08_21_22_20_11_1_1,
  1939_08_29_23_09_10_1_2, 1939_09_06_21_25_01_1_3, 1939_09_13_12_22_06_1_0, 1939_09_20_11_33_38_1_1,
  1939_09_28_15_28_04_1_2, 1939_10_06_06_27_52_1_3, 1939_10_12_21_30_11_1_0, 1939_10_20_04_23_54_1_1,
  1939_10_28_07_42_51_1_2, 1939_11_04_14_12_25_1_3, 1939_11_11_08_54_50_1_0, 1939_11_19_00_22_00_1_1,
  1939_11_26_21_55_40_0_2, 1939_12_03_20_41_08_0_3, 1939_12_10_21_46_26_0_0, 1939_12_18_21_05_06_0_1,
  1939_12_26_11_29_46_0_2]

/-- data/astro/astro-1940.json. -/
def astro1940 : List Nat := [
  1940_01_02_04_57_30_0_3, 1940_01_09_13_53_53_0_0, 1940_01_17_18_21_43_0_1, 1940_01_24_23_23_06_0_2,
  1940_01_31_14_48_37_0_3, 1940_02_08_07_46_04_0_0, 1940_02_16_12_55_47_0_1, 1940_02_23_09_56_20_0_2,
  1940_03_01_03_36_00_1_3, 1940_03_09_03_23_23_1_0, 1940_03_17_04_24_37_1_1, 1940_03_23_20_33_23_1_2,
  1940_03_30_17_20_07_1_3, 1940_04_07_21_18_49_1_0, 1940_04_15_14_44_13_1_1, 1940_04_22_05_36_01_1_2,
  1940_04_29_08_49_28_1_3, 1940_05_07_13_07_07_1_0, 1940_05_14_21_49_09_1_1, 1940_05_21_14_31_34_1_2,
  1940_05_29_01_41_03_1_3, 1940_06_06_02_05_01_1_0, 1940_06_13_02_58_20_1_1, 1940_06_20_00_00_27_1_2,
  1940_06_27_19_13_46_1_3, 1940_07_05_12_27_17_1_0, 1940_07_12_07_35_13_1_1, 1940_07_19_10_54_30_1_2,
  1940_07_27_12_30_07_1_3, 1940_08_03_21_08_50_1_0, 1940_08_10_13_01_16_1_1, 1940_08_18_00_02_13_1_2,
  1940_08_26_04_33_20_1_3, 1940_09_02_05_15_04_1_0, 1940_09_08_20_32_53_1_1, 1940_09_16_15_41_28_1_2,
  1940_09_24_18_47_37_1_3, 1940_10_01_13_41_01_1_0, 1940_10_08_07_18_41_1_1, 1940_10_16_09_16_16_1_2,
  1940_10_24_07_04_50_1_3, 1940_10_30_23_03_03_1_0, 1940_11_06_22_07_59_1_1, 1940_11_15_03_24_32_1_2,
  1940_11_22_17_36_42_1_3, 1940_11_29_09_42_27_1_0, 1940_12_06_17_00_43_1_1, 1940_12_14_20_38_57_1_2,
  1940_12_22_02_45_36_1_3, 1940_12_28_21_57_01_1_0]

/-- data/astro/astro-1941.json. -/
def astro1941 : List Nat := [
  1941_01_05_14_39_15_1_1, 1941_01_13_12_05_29_1_2, 1941_01_20_11_02_30_1_3, 1941_01_27_12_04_13_1_0,
  1941_02_04_12_41_46_1_1, 1941_02_12_01_27_49_1_2, 1941_02_18_19_08_34_1_3, 1941_02_26_04_03_42_1_0,
  1941_03_06_08_42_49_1_1, 1941_03_13_12_47_57_1_2, 1941_03_20_03_52_52_1_3, 1941_03_27_21_15_21_1_0,
  1941_04_05_01_12_10_1_1, 1941_04_11_22_15_32_1_2, 1941_04_18_14_04_01_1_3, 1941_04_26_14_24_46_1_0,
  1941_05_04_14_48_20_2_1, 1941_05_11_07_15_04_2_2, 1941_05_18_03_17_57_2_3, 1941_05_26_07_19_19_2_0,
  1941_06_02_23_56_03_2_1, 1941_06_09_14_33_28_2_2, 1941_06_16_17_45_37_2_3, 1941_06_24_21_22_27_2_0,
  1941_07_02_06_24_25_2_1, 1941_07_08_22_16_47_2_2, 1941_07_16_10_07_25_2_3, 1941_07_24_09_38_18_2_0,
  1941_07_31_11_20_05_2_1, 1941_08_07_07_37_40_2_2, 1941_08_15_02_40_11_1_3, 1941_08_22_19_33_18_1_0,
  1941_08_29_15_04_51_1_1, 1941_09_05_18_35_32_1_2, 1941_09_13_20_32_26_1_3, 1941_09_21_05_37_45_1_0,
  1941_09_27_21_09_56_1_1, 1941_10_05_09_32_39_1_2, 1941_10_13_13_53_58_1_3, 1941_10_20_15_19_09_1_0,
  1941_10_27_06_04_30_1_1, 1941_11_04_03_00_54_1_2, 1941_11_12_05_55_14_1_3, 1941_11_19_01_03_41_1_0,
  1941_11_25_18_52_36_1_1, 1941_12_03_21_52_14_1_2, 1941_12_11_19_48_53_1_3, 1941_12_18_11_19_16_1_0,
  1941_12_25_11_42_55_1_1]

/-- data/astro/astro-1942.json. -/
def astro1942 : List Nat := [
  1942_01_02_16_43_06_1_2, 1942_01_10_07_05_28_1_3, 1942_01_16_22_33_38_1_0, 1942_01_24_07_34_56_1_1,
  1942_02_01_10_14_01_1_2, 1942_02_08_15_53_12_1_3, 1942_02_15_11_05_09_1_0, 1942_02_23_04_40_02_1_1,
  1942_03_03_01_22_00_1_2, 1942_03_09_23_01_42_1_3, 1942_03_17_00_52_39_1_0, 1942_03_25_01_02_41_1_1,
  1942_04_01_13_34_29_1_2, 1942_04_08_06_44_12_2_3, 1942_04_15_16_35_44_2_0, 1942_04_23_20_11_43_2_1,
  1942_05_01_00_00_58_2_2, 1942_05_07_14_13_38_2_3, 1942_05_15_07_46_45_2_0, 1942_05_23_11_11_35_2_1,
  1942_05_30_07_29_32_2_2, 1942_06_05_23_26_33_2_3, 1942_06_13_23_02_09_2_0, 1942_06_21_22_44_47_2_1,
  1942_06_28_14_09_21_2_2, 1942_07_05_10_58_01_2_3, 1942_07_13_14_02_31_2_0, 1942_07_21_07_12_32_2_1,
  1942_07_27_21_13_03_2_2, 1942_08_04_01_03_37_2_3, 1942_08_12_03_26_17_1_0, 1942_08_19_12_30_13_1_1,
  1942_08_26_04_44_52_1_2, 1942_09_02_16_41_51_1_3, 1942_09_10_16_50_54_1_0, 1942_09_17_17_56_15_1_1,
  1942_09_24_15_32_47_1_2, 1942_10_02_11_27_48_1_3, 1942_10_10_05_04_42_1_0, 1942_10_16_23_58_21_1_1,
  1942_10_24_05_04_24_1_2, 1942_11_01_07_19_33_1_3, 1942_11_08_16_17_55_1_0, 1942_11_15_07_57_04_1_1,
  1942_11_22_21_24_15_1_2, 1942_12_01_02_38_06_1_3, 1942_12_08_02_59_21_1_0, 1942_12_14_18_47_51_1_1,
  1942_12_22_16_04_00_1_2, 1942_12_30_19_38_09_1_3]

/-- data/astro/astro-1943.json. -/
def astro1943 : List Nat := [
  1943_01_06_13_38_47_1_0, 1943_01_13_08_48_48_1_1, 1943_01_21_11_48_49_1_2, 1943_01_29_09_13_59_1_3,
  1943_02_05_00_30_56_1_0, 1943_02_12_01_40_18_1_1, 1943_02_20_06_46_10_1_2, 1943_02_27_19_23_00_1_3,
  1943_03_06_11_36_00_1_0, 1943_03_13_20_31_17_1_1, 1943_03_21_23_10_30_1_2, 1943_03_29_02_52_38_1_3,
  1943_04_04_23_55_22_2_0, 1943_04_12_17_05_33_2_1, 1943_04_20_13_13_18_2_2, 1943_04_27_09_52_20_2_3,
  1943_05_04_11_45_27_2_0, 1943_05_12_11_53_31_2_1, 1943_05_19_23_14_51_2_2, 1943_05_26_15_34_41_2_3,
  1943_06_03_00_34_52_2_0, 1943_06_11_04_35_53_2_1, 1943_06_18_07_15_38_2_2, 1943_06_24_22_08_55_2_3,
  1943_07_02_14_44_34_2_0, 1943_07_10_18_29_26_2_1, 1943_07_17_14_22_37_2_2, 1943_07_24_06_39_35_2_3,
  1943_08_01_06_06_21_2_0, 1943_08_09_05_36_17_2_1, 1943_08_15_20_34_07_1_2, 1943_08_22_17_05_02_1_3,
  1943_08_30_20_58_55_1_0, 1943_09_07_13_32_28_1_1, 1943_09_14_04_39_06_1_2, 1943_09_21_08_06_37_1_3,
  1943_09_29_12_28_20_1_0, 1943_10_06_21_09_35_1_1, 1943_10_13_14_21_42_1_2, 1943_10_21_02_42_25_1_3,
  1943_10_29_02_58_09_1_0, 1943_11_05_04_22_22_1_1, 1943_11_12_02_25_36_1_2, 1943_11_19_23_43_14_1_3,
  1943_11_27_16_22_10_1_0, 1943_12_04_12_04_07_1_1, 1943_12_11_17_24_04_1_2, 1943_12_19_21_03_50_1_3,
  1943_12_27_04_49_56_1_0]

/-- data/astro/astro-1944.json. -/
def astro1944 : List Nat := [
  1944_01_02_21_05_10_1_1, 1944_01_10_11_09_27_1_2, 1944_01_18_16_32_43_1_3, 1944_01_25_16_24_33_1_0,
  1944_02_01_08_08_46_1_1, 1944_02_09_06_29_30_1_2, 1944_02_17_08_42_32_1_3, 1944_02_24_02_59_43_1_0,
  1944_03_01_21_40_43_1_1, 1944_03_10_01_28_07_1_2, 1944_03_17_21_05_24_1_3, 1944_03_24_12_37_28_1_0,
  1944_03_31_13_34_45_1_1, 1944_04_08_19_23_09_2_2, 1944_04_16_06_59_24_2_3, 1944_04_22_22_45_15_2_0,
  1944_04_30_08_06_23_2_1, 1944_05_08_09_30_07_2_2, 1944_05_15_13_13_05_2_3, 1944_05_22_08_14_25_2_0,
  1944_05_30_02_06_15_2_1, 1944_06_06_20_59_38_2_2, 1944_06_13_17_57_50_2_3, 1944_06_20_19_01_27_2_0,
  1944_06_28_19_27_06_2_1, 1944_07_06_06_28_51_2_2, 1944_07_12_22_40_28_2_3, 1944_07_20_07_44_04_2_0,
  1944_07_28_11_24_49_2_1, 1944_08_04_14_41_06_2_2, 1944_08_11_04_53_41_2_3, 1944_08_18_22_25_52_2_0,
  1944_08_27_01_40_15_2_1, 1944_09_02_22_22_12_2_2, 1944_09_09_14_04_00_2_3, 1944_09_17_13_37_59_1_0,
  1944_09_25_13_07_57_1_1, 1944_10_02_05_22_21_1_2, 1944_10_09_02_12_26_1_3, 1944_10_17_06_34_51_1_0,
  1944_10_24_23_48_23_1_1, 1944_10_31_14_35_34_1_2, 1944_11_07_19_28_37_1_3, 1944_11_15_23_29_02_1_0,
  1944_11_23_08_52_55_1_1, 1944_11_30_01_51_44_1_2, 1944_12_07_15_56_40_1_3, 1944_12_15_15_34_23_1_0,
  1944_12_22_16_54_27_1_1, 1944_12_29_15_38_09_1_2]

/-- data/astro/astro-1945.json. -/
def astro1945 : List Nat := [
  1945_01_06_13_48_32_1_3, 1945_01_14_06_06_38_1_0, 1945_01_21_00_48_38_1_1, 1945_01_28_07_41_07_1_2,
  1945_02_05_10_57_31_1_3, 1945_02_12_18_33_44_1_0, 1945_02_19_09_38_40_1_1, 1945_02_27_01_06_47_1_2,
  1945_03_07_05_32_08_1_3, 1945_03_14_04_52_00_1_0, 1945_03_20_20_12_06_1_1, 1945_03_28_18_44_47_1_2,
  1945_04_05_21_20_17_2_3, 1945_04_12_14_31_04_2_0, 1945_04_19_09_46_21_2_1, 1945_04_27_12_33_36_2_2,
  1945_05_05_08_03_15_2_3, 1945_05_11_22_23_16_2_0, 1945_05_19_00_11_47_2_1, 1945_05_27_03_50_14_2_2,
  1945_06_03_15_16_08_2_3, 1945_06_10_06_27_28_2_0, 1945_06_17_16_05_39_2_1, 1945_06_25_17_09_41_2_2,
  1945_07_02_20_13_48_2_3, 1945_07_09_15_36_50_2_0, 1945_07_17_08_01_45_1_1, 1945_07_25_03_27_23_1_2,
  1945_07_31_23_31_00_1_3, 1945_08_08_01_32_50_1_0, 1945_08_16_01_28_02_1_1, 1945_08_23_13_04_32_1_2,
  1945_08_30_04_45_40_1_3, 1945_09_06_14_43_48_1_0, 1945_09_14_18_39_06_1_1, 1945_09_21_21_46_51_1_2,
  1945_09_28_12_24_51_1_3, 1945_10_06_06_22_02_1_0, 1945_10_14_09_37_54_0_1, 1945_10_21_05_32_30_0_2,
  1945_10_27_22_30_30_0_3, 1945_11_04_23_10_22_0_0, 1945_11_12_23_33_30_0_1, 1945_11_19_15_13_13_0_2,
  1945_11_26_13_28_16_0_3, 1945_12_04_18_06_18_0_0, 1945_12_12_11_03_57_0_1, 1945_12_19_02_17_21_0_2,
  1945_12_26_08_00_49_0_3]

/-- data/astro/astro-1946.json. -/
def astro1946 : List Nat := [
  1946_01_03_12_29_31_0_0, 1946_01_10_20_26_31_0_1, 1946_01_17_14_46_21_0_2, 1946_01_25_05_01_54_0_3,
  1946_02_02_04_43_54_0_0, 1946_02_09_04_27_45_0_1, 1946_02_16_04_27_46_0_2, 1946_02_24_02_38_52_0_3,
  1946_03_03_18_02_49_0_0, 1946_03_10_12_03_44_0_1, 1946_03_17_19_11_11_0_2, 1946_03_25_22_39_36_0_3,
  1946_04_02_04_38_49_0_0, 1946_04_08_20_05_10_0_1, 1946_04_16_11_47_32_1_2, 1946_04_24_16_20_28_1_3,
  1946_05_01_14_17_38_1_0, 1946_05_08_06_14_01_1_1, 1946_05_16_03_53_18_1_2, 1946_05_24_05_02_56_1_3,
  1946_05_30_21_50_48_1_0, 1946_06_06_17_07_05_1_1, 1946_06_14_19_42_48_1_2, 1946_06_22_14_12_43_1_3,
  1946_06_29_05_06_50_1_0, 1946_07_06_06_15_59_1_1, 1946_07_14_10_24_11_1_2, 1946_07_21_20_52_36_1_3,
  1946_07_28_12_54_31_1_0, 1946_08_04_21_56_12_1_1, 1946_08_12_23_27_38_1_2, 1946_08_20_02_18_00_1_3,
  1946_08_26_22_07_38_1_0, 1946_09_03_15_48_53_1_1, 1946_09_11_11_01_10_1_2, 1946_09_18_07_45_53_1_3,
  1946_09_25_09_44_46_1_0, 1946_10_03_10_52_46_1_1, 1946_10_10_20_41_59_0_2, 1946_10_17_13_29_53_0_3,
  1946_10_24_23_31_33_0_0, 1946_11_02_04_39_53_0_1, 1946_11_09_07_11_24_0_2, 1946_11_15_22_36_27_0_3,
  1946_11_23_17_24_18_0_0, 1946_12_01_21_47_29_0_1, 1946_12_08_17_52_29_0_2, 1946_12_15_10_58_22_0_3,
  1946_12_23_13_06_29_0_0]

/-- data/astro/astro-1947.json. -/
def astro1947 : List Nat := [
  1947_01_07_04_46_34_0_2, 1947_01_14_02_57_14_0_3, 1947_01_22_08_34_48_0_0, 1947_01_30_00_06_34_0_1,
  1947_02_05_15_50_13_0_2, 1947_02_12_21_58_53_0_3, 1947_02_21_02_01_07_0_0, 1947_02_28_09_11_37_0_1,
  1947_03_07_03_14_57_0_2, 1947_03_14_18_28_22_0_3, 1947_03_22_17_35_19_1_0, 1947_03_29_17_15_26_1_1,
  1947_04_05_16_28_15_1_2, 1947_04_13_16_23_54_2_3, 1947_04_21_06_20_15_2_0, 1947_04_28_00_18_32_2_1,
  1947_05_05_06_53_15_2_2, 1947_05_13_10_08_40_2_3, 1947_05_20_15_44_21_2_0, 1947_05_27_06_35_58_2_1,
  1947_06_03_21_27_02_2_2, 1947_06_12_00_58_54_2_3, 1947_06_18_23_26_26_2_0, 1947_06_25_14_25_26_2_1,
  1947_07_03_12_39_19_2_2, 1947_07_11_12_55_39_2_3, 1947_07_18_06_15_38_2_0, 1947_07_25_00_53_35_2_1,
  1947_08_02_03_51_12_2_2, 1947_08_09_22_23_11_2_3, 1947_08_16_12_12_56_1_0, 1947_08_23_13_39_48_1_1,
  1947_08_31_17_35_41_1_2, 1947_09_08_04_58_17_1_3, 1947_09_14_20_28_22_1_0, 1947_09_22_06_41_24_1_1,
  1947_09_30_07_42_36_1_2, 1947_10_07_11_30_44_1_3, 1947_10_14_07_10_14_1_0, 1947_10_22_02_10_26_1_1,
  1947_10_29_21_08_30_1_2, 1947_11_05_17_05_16_0_3, 1947_11_12_20_01_36_0_0, 1947_11_20_21_44_42_0_1,
  1947_11_28_08_46_24_0_2, 1947_12_05_00_56_55_0_3, 1947_12_12_12_54_21_0_0, 1947_12_20_17_44_49_0_1,
  1947_12_27_20_27_24_0_2]

/-- data/astro/astro-1948.json. -/
def astro1948 : List Nat := [
  1948_01_03_11_14_07_0_3, 1948_01_11_07_45_26_0_0, 1948_01_19_11_32_41_0_1, 1948_01_26_07_11_34_0_2,
  1948_02_02_00_32_15_0_3, 1948_02_10_03_02_18_0_0, 1948_02_18_01_54_51_0_1, 1948_02_24_17_15_40_0_2,
  1948_03_02_16_35_26_0_3, 1948_03_10_21_15_26_0_0, 1948_03_18_13_26_47_1_1, 1948_03_25_04_10_01_1_2,
  1948_04_01_11_25_03_1_3, 1948_04_09_14_17_22_1_0, 1948_04_16_20_41_24_1_1, 1948_04_23_14_28_02_1_2,
  1948_05_01_05_48_49_1_3, 1948_05_09_03_31_03_1_0, 1948_05_16_01_54_40_1_1, 1948_05_23_01_36_50_1_2,
  1948_05_30_23_44_37_1_3, 1948_06_07_13_56_04_1_0, 1948_06_14_06_40_24_1_1, 1948_06_21_13_54_23_1_2,
  1948_06_29_16_25_00_1_3, 1948_07_06_22_09_09_1_0, 1948_07_13_12_30_13_1_1, 1948_07_21_03_31_50_1_2,
  1948_07_29_07_13_31_1_3, 1948_08_05_05_13_22_1_0, 1948_08_11_20_40_46_1_1, 1948_08_19_18_32_59_1_2,
  1948_08_27_19_47_39_1_3, 1948_09_03_12_21_53_1_0, 1948_09_10_08_05_31_1_1, 1948_09_18_10_44_27_1_2,
  1948_09_26_06_07_45_1_3, 1948_10_02_20_42_21_1_0, 1948_10_09_23_10_20_1_1, 1948_10_18_03_25_06_1_2,
  1948_10_25_14_42_09_1_3, 1948_11_01_06_03_09_0_0, 1948_11_08_16_46_55_0_1, 1948_11_16_18_32_44_0_2,
  1948_11_23_21_22_55_0_3, 1948_11_30_18_45_13_0_0, 1948_12_08_13_58_27_0_1, 1948_12_16_09_11_52_0_2,
  1948_12_23_05_12_56_0_3, 1948_12_30_09_45_20_0_0]

/-- data/astro/astro-1949.json. -/
def astro1949 : List Nat := [
  1949_01_07_11_52_04_0_1, 1949_01_14_22_00_02_0_2, 1949_01_21_14_08_08_0_3, 1949_01_29_02_42_42_0_0,
  1949_02_06_08_04_55_0_1, 1949_02_13_09_08_32_0_2, 1949_02_20_00_43_22_0_3, 1949_02_27_20_55_04_0_0,
  1949_03_08_00_41_41_0_1, 1949_03_14_19_02_54_0_2, 1949_03_21_13_10_43_0_3, 1949_03_29_15_11_01_0_0,
  1949_04_06_14_00_25_1_1, 1949_04_13_05_08_04_1_2, 1949_04_20_04_27_55_1_3, 1949_04_28_09_03_04_1_0,
  1949_05_05_22_31_52_1_1, 1949_05_12_13_50_10_1_2, 1949_05_19_20_23_32_1_3, 1949_05_27_23_24_55_1_0,
  1949_06_04_04_26_53_1_1, 1949_06_10_22_44_56_1_2, 1949_06_18_13_31_08_1_3, 1949_06_26_11_02_40_1_0,
  1949_07_03_09_08_09_1_1, 1949_07_10_08_41_11_1_2, 1949_07_18_07_03_17_1_3, 1949_07_25_20_33_26_1_0,
  1949_08_01_13_58_48_1_1, 1949_08_08_20_33_26_1_2, 1949_08_17_00_00_04_1_3, 1949_08_24_04_59_25_1_0,
  1949_08_30_20_18_18_1_1, 1949_09_07_11_00_13_1_2, 1949_09_15_15_30_09_1_3, 1949_09_22_13_21_21_1_0,
  1949_09_29_05_19_57_1_1, 1949_10_07_03_54_17_1_2, 1949_10_15_05_06_58_1_3, 1949_10_21_22_23_14_1_0,
  1949_10_28_18_05_07_1_1, 1949_11_05_21_10_59_0_2, 1949_11_13_15_48_40_0_3, 1949_11_20_07_30_02_0_0,
  1949_11_27_10_02_00_0_1, 1949_12_05_15_15_25_0_2, 1949_12_13_01_49_04_0_3, 1949_12_19_18_57_08_0_0,
  1949_12_27_06_32_01_0_1]

/-- data/astro/astro-1950.json. -/
def astro1950 : List Nat := [
  1950_01_04_07_49_39_0_2, 1950_01_11_10_32_13_0_3, 1950_01_18_08_01_22_0_0, 1950_01_26_04_39_19_0_1,
  1950_02_02_22_17_46_0_2, 1950_02_09_18_33_28_0_3, 1950_02_16_22_54_49_0_0, 1950_02_25_01_52_10_0_1,
  1950_03_04_10_35_08_0_2, 1950_03_11_02_39_41_0_3, 1950_03_18_15_21_43_0_0, 1950_03_26_20_09_45_0_1,
  1950_04_02_20_49_30_0_2, 1950_04_09_11_43_28_0_3, 1950_04_17_09_26_31_1_0, 1950_04_25_11_39_36_1_1,
  1950_05_02_06_19_17_1_2, 1950_05_08_23_32_21_1_3, 1950_05_17_01_55_11_1_0, 1950_05_24_22_27_45_1_1,
  1950_05_31_13_42_14_1_2, 1950_06_07_12_35_33_1_3, 1950_06_15_16_52_57_1_0, 1950_06_23_06_12_26_1_1,
  1950_06_29_20_57_21_1_2, 1950_07_07_03_53_14_1_3, 1950_07_15_06_04_52_1_0, 1950_07_22_11_50_46_1_1,
  1950_07_29_05_16_40_1_2, 1950_08_05_20_55_30_1_3, 1950_08_13_17_47_15_1_0, 1950_08_20_16_36_09_1_1,
  1950_08_27_15_49_52_1_2, 1950_09_04_14_53_39_1_3, 1950_09_12_04_27_42_1_0, 1950_09_18_21_54_59_1_1,
  1950_09_26_05_21_05_1_2, 1950_10_04_08_53_56_1_3, 1950_10_11_14_32_31_1_0, 1950_10_18_05_18_37_1_1,
  1950_10_25_20_47_11_0_2, 1950_11_03_01_02_07_0_3, 1950_11_09_23_25_05_0_0, 1950_11_16_15_06_24_0_1,
  1950_11_24_15_15_33_0_2, 1950_12_02_16_23_23_0_3, 1950_12_09_09_29_27_0_0, 1950_12_16_05_56_47_0_1,
  1950_12_24_10_24_39_0_2]

/-- data/astro/astro-1951.json. -/
def astro1951 : List Nat := [
  1951_01_01_05_12_24_0_3, 1951_01_07_20_12_01_0_0, 1951_01_15_00_22_34_0_1, 1951_01_23_04_48_48_0_2,
  1951_01_30_15_14_44_0_3, 1951_02_06_07_56_28_0_0, 1951_02_13_20_55_17_0_1, 1951_02_21_21_14_12_0_2,
  1951_02_28_23_00_34_0_3, 1951_03_07_20_53_16_0_0, 1951_03_15_17_40_38_0_1, 1951_03_23_10_51_50_0_2,
  1951_03_30_05_35_47_0_3, 1951_04_06_10_53_55_0_0, 1951_04_14_12_56_38_0_1, 1951_04_21_22_31_21_1_2,
  1951_04_28_13_18_18_1_3, 1951_05_06_02_37_07_1_0, 1951_05_14_06_32_24_1_1, 1951_05_21_06_45_12_1_2,
  1951_05_27_21_17_02_1_3, 1951_06_04_17_40_59_1_0, 1951_06_12_19_52_05_1_1, 1951_06_19_13_36_00_1_2,
  1951_06_26_07_21_19_1_3, 1951_07_04_08_47_43_1_0, 1951_07_12_05_56_27_1_1, 1951_07_18_20_17_15_1_2,
  1951_07_25_19_59_18_1_3, 1951_08_02_23_38_20_1_0, 1951_08_10_13_22_30_1_1, 1951_08_17_03_58_53_1_2,
  1951_08_24_11_20_32_1_3, 1951_09_01_13_48_20_1_0, 1951_09_08_19_16_11_1_1, 1951_09_15_13_37_31_1_2,
  1951_09_23_05_14_13_1_3, 1951_10_01_02_55_12_1_0, 1951_10_08_01_00_12_1_1, 1951_10_15_01_50_08_1_2,
  1951_10_22_23_56_59_0_3, 1951_10_30_13_53_13_0_0, 1951_11_06_06_59_00_0_1, 1951_11_13_15_51_46_0_2,
  1951_11_21_20_02_35_0_3, 1951_11_29_00_59_38_0_0, 1951_12_05_16_20_58_0_1, 1951_12_13_09_30_43_0_2,
  1951_12_21_14_38_15_0_3, 1951_12_28_11_43_44_0_0]

/-- data/astro/astro-1952.json. -/
def astro1952 : List Nat := [
  1952_01_04_04_42_16_0_1, 1952_01_12_04_55_26_0_2, 1952_01_20_06_09_41_0_3, 1952_01_26_22_27_36_0_0,
  1952_02_02_20_01_20_0_1, 1952_02_11_00_28_39_0_2, 1952_02_18_18_01_14_0_3, 1952_02_25_09_17_43_0_0,
  1952_03_03_13_43_49_0_1, 1952_03_11_18_15_17_0_2, 1952_03_19_02_39_29_0_3, 1952_03_25_20_14_32_0_0,
  1952_04_02_08_49_24_0_1, 1952_04_10_08_55_15_0_2, 1952_04_17_09_07_35_0_3, 1952_04_24_08_29_10_1_0,
  1952_05_02_04_58_17_1_1, 1952_05_09_21_17_31_1_2, 1952_05_16_15_39_34_1_3, 1952_05_23_20_29_12_1_0,
  1952_05_31_22_46_35_1_1, 1952_06_08_06_08_12_1_2, 1952_06_14_21_28_34_1_3, 1952_06_22_09_45_57_1_0,
  1952_06_30_14_11_36_1_1, 1952_07_07_13_34_48_1_2, 1952_07_14_04_43_34_1_3, 1952_07_22_00_31_06_1_0,
  1952_07_30_02_51_13_1_1, 1952_08_05_20_40_58_1_2, 1952_08_12_14_28_24_1_3, 1952_08_20_16_20_31_1_0,
  1952_08_28_13_03_34_1_1, 1952_09_04_04_19_35_1_2, 1952_09_11_03_36_58_1_3, 1952_09_19_08_21_34_1_0,
  1952_09_26_21_31_03_1_1, 1952_10_03_13_15_08_1_2, 1952_10_10_20_33_46_1_3, 1952_10_18_23_41_46_1_0,
  1952_10_26_04_04_25_0_1, 1952_11_01_23_09_16_0_2, 1952_11_09_15_43_41_0_3, 1952_11_17_12_55_04_0_0,
  1952_11_24_11_34_55_0_1, 1952_12_01_12_40_53_0_2, 1952_12_09_13_22_05_0_3, 1952_12_17_02_02_00_0_0,
  1952_12_23_19_52_26_0_1]

/-- data/astro/astro-1953.json. -/
def astro1953 : List Nat := [
  1953_01_08_10_09_36_0_3, 1953_01_15_14_08_24_0_0, 1953_01_22_05_43_40_0_1, 1953_01_29_23_44_16_0_2,
  1953_02_07_04_10_16_0_3, 1953_02_14_01_11_00_0_0, 1953_02_20_17_45_24_0_1, 1953_02_28_18_59_00_0_2,
  1953_03_08_18_27_09_0_3, 1953_03_15_11_06_23_0_0, 1953_03_22_08_11_31_0_1, 1953_03_30_12_56_10_0_2,
  1953_04_07_04_58_59_0_3, 1953_04_13_20_10_45_0_0, 1953_04_21_01_41_00_1_1, 1953_04_29_05_22_23_1_2,
  1953_05_06_13_21_42_1_3, 1953_05_13_06_07_41_1_0, 1953_05_20_19_19_48_1_1, 1953_05_28_18_04_48_1_2,
  1953_06_04_18_36_47_1_3, 1953_06_11_15_56_25_1_0, 1953_06_19_13_00_35_1_1, 1953_06_27_04_31_01_1_2,
  1953_07_03_23_04_56_1_3, 1953_07_11_03_29_20_1_0, 1953_07_19_05_47_35_1_1, 1953_07_26_13_22_08_1_2,
  1953_08_02_04_17_46_1_3, 1953_08_09_17_10_40_1_0, 1953_08_17_21_08_43_1_1, 1953_08_24_21_21_42_1_2,
  1953_08_31_11_47_30_1_3, 1953_09_08_08_47_50_1_0, 1953_09_16_10_49_54_1_1, 1953_09_23_05_16_05_1_2,
  1953_09_29_22_51_51_1_3, 1953_10_08_00_40_19_0_0, 1953_10_15_21_44_20_0_1, 1953_10_22_12_55_47_0_2,
  1953_10_29_13_09_16_0_3, 1953_11_06_17_57_12_0_0, 1953_11_14_07_51_59_0_1, 1953_11_20_23_11_55_0_2,
  1953_11_28_08_15_37_0_3, 1953_12_06_10_47_20_0_0, 1953_12_13_16_30_15_0_1, 1953_12_20_11_43_14_0_2,
  1953_12_28_05_43_30_0_3]

/-- data/astro/astro-1954.json. -/
def astro1954 : List Nat := [
  1954_01_05_02_20_54_0_0, 1954_01_12_00_22_17_0_1, 1954_01_19_02_36_34_0_2, 1954_01_27_03_29_32_0_3,
  1954_02_03_15_55_35_0_0, 1954_02_10_08_29_58_0_1, 1954_02_17_19_17_11_0_2, 1954_02_25_23_31_09_0_3,
  1954_03_05_03_12_12_0_0, 1954_03_11_17_52_30_0_1, 1954_03_19_12_42_40_0_2, 1954_03_27_16_15_52_0_3,
  1954_04_03_12_26_26_0_0, 1954_04_10_05_05_53_0_1, 1954_04_18_06_49_09_1_2, 1954_04_26_05_58_57_1_3,
  1954_05_02_21_23_58_1_0, 1954_05_09_19_17_07_1_1, 1954_05_17_22_47_55_1_2, 1954_05_25_14_50_13_1_3,
  1954_06_01_05_04_30_1_0, 1954_06_08_10_13_13_1_1, 1954_06_16_13_06_53_1_2, 1954_06_23_20_46_40_1_3,
  1954_06_30_13_26_57_1_0, 1954_07_08_02_33_16_1_1, 1954_07_16_01_30_20_1_2, 1954_07_23_01_14_40_1_3,
  1954_07_29_23_20_28_1_0, 1954_08_06_19_51_19_1_1, 1954_08_14_12_04_17_1_2, 1954_08_21_05_51_46_1_3,
  1954_08_28_11_20_58_1_0, 1954_09_05_13_29_03_1_1, 1954_09_12_21_20_33_1_2, 1954_09_19_12_12_01_1_3,
  1954_09_27_01_50_03_1_0, 1954_10_05_05_30_52_0_1, 1954_10_12_05_10_47_0_2, 1954_10_18_20_31_14_0_3,
  1954_10_26_17_46_50_0_0, 1954_11_03_20_54_31_0_1, 1954_11_10_14_30_01_0_2, 1954_11_17_09_33_23_0_3,
  1954_11_25_12_30_33_0_0, 1954_12_03_09_55_39_0_1, 1954_12_10_00_57_10_0_2, 1954_12_17_02_22_01_0_3,
  1954_12_25_07_33_12_0_0]

/-- data/astro/astro-1955.json. -/
def astro1955 : List Nat := [
  1955_01_01_20_28_19_0_1, 1955_01_08_12_44_08_0_2, 1955_01_15_22_14_54_0_3, 1955_01_24_01_06_59_0_0,
  1955_01_31_05_05_15_0_1, 1955_02_07_01_42_22_0_2, 1955_02_14_19_41_44_0_3, 1955_02_22_15_55_12_0_0,
  1955_03_01_12_40_27_0_1, 1955_03_08_15_40_41_0_2, 1955_03_16_16_37_37_0_3, 1955_03_24_03_43_20_0_0,
  1955_03_30_20_09_59_0_1, 1955_04_07_06_34_16_0_2, 1955_04_15_11_01_52_0_3, 1955_04_22_14_06_52_1_0,
  1955_04_29_05_22_42_1_1, 1955_05_06_23_13_38_1_2, 1955_05_15_02_43_03_1_3, 1955_05_21_21_59_08_1_0,
  1955_05_28_15_01_04_1_1, 1955_06_05_15_08_18_1_2, 1955_06_13_13_37_08_1_3, 1955_06_20_05_12_04_1_0,
  1955_06_27_02_43_34_1_1, 1955_07_05_06_28_55_1_2, 1955_07_12_21_30_43_1_3, 1955_07_19_12_34_42_1_0,
  1955_07_26_16_59_19_1_1, 1955_08_03_20_31_01_1_2, 1955_08_11_03_33_19_1_3, 1955_08_17_20_58_02_1_0,
  1955_08_25_09_51_23_1_1, 1955_09_02_09_00_26_1_2, 1955_09_09_09_00_10_1_3, 1955_09_16_07_18_38_1_0,
  1955_09_24_04_39_51_1_1, 1955_10_01_20_18_42_1_2, 1955_10_08_14_05_23_0_3, 1955_10_15_19_31_40_0_0,
  1955_10_23_23_03_53_0_1, 1955_10_31_06_05_13_0_2, 1955_11_06_21_57_54_0_3, 1955_11_14_12_01_52_0_0,
  1955_11_22_17_28_50_0_1, 1955_11_29_16_50_56_0_2, 1955_12_06_08_37_12_0_3, 1955_12_14_07_07_54_0_0,
  1955_12_22_09_39_42_0_1, 1955_12_29_03_44_23_0_2]

/-- data/astro/astro-1956.json. -/
def astro1956 : List Nat := [
  1956_01_04_22_42_15_0_3, 1956_01_13_03_01_40_0_0, 1956_01_20_22_58_06_0_1, 1956_01_27_14_40_16_0_2,
  1956_02_03_16_09_14_0_3, 1956_02_11_21_38_43_0_0, 1956_02_19_09_20_46_0_1, 1956_02_26_01_41_27_0_2,
  1956_03_04_11_54_03_0_3, 1956_03_12_13_37_52_0_0, 1956_03_19_17_13_39_0_1, 1956_03_26_13_10_52_0_2,
  1956_04_03_08_06_31_0_3, 1956_04_11_02_39_49_0_0, 1956_04_17_23_28_16_0_1, 1956_04_25_02_40_20_1_2,
  1956_05_03_03_56_11_1_3, 1956_05_10_14_05_08_1_0, 1956_05_17_06_15_48_1_1, 1956_05_24_16_25_57_1_2,
  1956_06_01_20_14_21_1_3, 1956_06_08_22_29_41_1_0, 1956_06_15_12_56_27_1_1, 1956_06_23_07_14_08_1_2,
  1956_07_01_09_42_07_1_3, 1956_07_08_05_38_02_1_0, 1956_07_14_21_46_46_1_1, 1956_07_22_22_30_05_1_2,
  1956_07_30_20_32_36_1_3, 1956_08_06_12_25_22_1_0, 1956_08_13_09_44_37_1_1, 1956_08_21_13_39_03_1_2,
  1956_08_29_05_14_03_1_3, 1956_09_04_19_57_19_1_0, 1956_09_12_01_11_50_1_1, 1956_09_20_04_20_37_1_2,
  1956_09_27_12_26_09_1_3, 1956_10_04_05_24_03_1_0, 1956_10_11_18_42_51_0_1, 1956_10_19_17_25_40_0_2,
  1956_10_26_18_03_07_0_3, 1956_11_02_16_43_13_0_0, 1956_11_10_15_08_23_0_1, 1956_11_18_06_45_16_0_2,
  1956_11_25_01_13_39_0_3, 1956_12_02_08_12_44_0_0, 1956_12_10_11_51_23_0_1, 1956_12_17_19_06_32_0_2,
  1956_12_24_10_10_45_0_3]

/-- data/astro/astro-1957.json. -/
def astro1957 : List Nat := [
  1957_01_01_02_14_01_0_0, 1957_01_09_07_06_43_0_1, 1957_01_16_06_21_24_0_2, 1957_01_22_21_48_46_0_3,
  1957_01_30_21_25_02_0_0, 1957_02_07_23_23_18_0_1, 1957_02_14_16_37_49_0_2, 1957_02_21_12_18_58_0_3,
  1957_03_01_16_12_50_0_0, 1957_03_09_11_49_53_0_1, 1957_03_16_02_21_52_0_2, 1957_03_23_05_04_27_0_3,
  1957_03_31_09_19_46_0_0, 1957_04_07_20_32_22_0_1, 1957_04_14_13_09_17_1_2, 1957_04_22_00_00_57_1_3,
  1957_04_30_00_54_50_1_0, 1957_05_07_03_29_25_1_1, 1957_05_13_23_34_10_1_2, 1957_05_21_18_04_43_1_3,
  1957_05_29_12_39_57_1_0, 1957_06_05_08_09_58_1_1, 1957_06_12_11_02_09_1_2, 1957_06_20_11_24_43_1_3,
  1957_06_27_21_54_09_1_0, 1957_07_04_13_09_47_1_1, 1957_07_11_23_50_25_1_2, 1957_07_20_03_19_57_1_3,
  1957_07_27_05_28_44_1_0, 1957_08_02_19_55_42_1_1, 1957_08_10_14_09_15_1_2, 1957_08_18_17_18_03_1_3,
  1957_08_25_12_33_12_1_0, 1957_09_01_05_35_04_1_1, 1957_09_09_05_56_16_1_2, 1957_09_17_05_02_58_1_3,
  1957_09_23_20_18_50_1_0, 1957_09_30_18_49_00_1_1, 1957_10_08_21_43_30_0_2, 1957_10_16_13_44_27_0_3,
  1957_10_23_04_43_28_0_0, 1957_10_30_10_47_21_0_1, 1957_11_07_14_32_59_0_2, 1957_11_14_21_59_46_0_3,
  1957_11_21_16_19_32_0_0, 1957_11_29_06_57_57_0_1, 1957_12_07_06_16_41_0_2, 1957_12_14_05_45_34_0_3,
  1957_12_21_06_12_24_0_0, 1957_12_29_04_52_52_0_1]

/-- data/astro/astro-1958.json. -/
def astro1958 : List Nat := [
  1958_01_05_20_09_37_0_2, 1958_01_12_14_01_49_0_3, 1958_01_19_22_08_38_0_0, 1958_01_28_02_16_28_0_1,
  1958_02_04_08_06_18_0_2, 1958_02_10_23_34_42_0_3, 1958_02_18_15_39_08_0_0, 1958_02_26_20_51_48_0_1,
  1958_03_05_18_28_40_0_2, 1958_03_12_10_48_32_0_3, 1958_03_20_09_50_35_0_0, 1958_03_28_11_18_21_0_1,
  1958_04_04_03_44_59_0_2, 1958_04_10_23_50_28_0_3, 1958_04_19_03_24_09_0_0, 1958_04_26_22_34_46_1_1,
  1958_05_03_13_22_37_1_2, 1958_05_10_15_38_29_1_3, 1958_05_18_20_00_57_1_0, 1958_05_26_05_36_59_1_1,
  1958_06_01_21_54_04_1_2, 1958_06_09_07_59_52_1_3, 1958_06_17_08_59_40_1_0, 1958_06_24_10_44_08_1_1,
  1958_07_01_07_03_36_1_2, 1958_07_09_01_21_50_1_3, 1958_07_16_19_33_02_1_0, 1958_07_23_15_19_47_1_1,
  1958_07_30_17_46_02_1_2, 1958_08_07_18_50_05_1_3, 1958_08_15_04_32_51_1_0, 1958_08_21_20_45_41_1_1,
  1958_08_29_06_52_55_1_2, 1958_09_06_11_24_28_1_3, 1958_09_13_13_01_47_1_0, 1958_09_20_04_18_39_1_1,
  1958_09_27_22_44_11_1_2, 1958_10_06_01_20_33_0_3, 1958_10_12_20_51_37_0_0, 1958_10_19_14_07_15_0_1,
  1958_10_27_15_42_04_0_2, 1958_11_04_14_19_47_0_3, 1958_11_11_06_33_46_0_0, 1958_11_18_04_59_28_0_1,
  1958_11_26_10_17_53_0_2, 1958_12_04_01_24_40_0_3, 1958_12_10_17_23_51_0_0, 1958_12_17_23_52_33_0_1,
  1958_12_26_03_55_27_0_2]

/-- data/astro/astro-1959.json. -/
def astro1959 : List Nat := [
  1959_01_02_10_51_12_0_3, 1959_01_09_05_35_10_0_0, 1959_01_16_21_26_25_0_1, 1959_01_24_19_34_06_0_2,
  1959_01_31_19_07_31_0_3, 1959_02_07_19_23_55_0_0, 1959_02_15_19_19_39_0_1, 1959_02_23_08_55_25_0_2,
  1959_03_02_02_55_28_0_3, 1959_03_09_10_53_04_0_0, 1959_03_17_15_10_21_0_1, 1959_03_24_20_03_45_0_2,
  1959_03_31_11_07_52_0_3, 1959_04_08_03_30_41_0_0, 1959_04_16_07_32_52_0_1, 1959_04_23_06_13_50_1_2,
  1959_04_29_21_39_25_1_3, 1959_05_07_21_12_38_1_0, 1959_05_15_21_08_34_1_1, 1959_05_22_13_55_25_1_2,
  1959_05_29_09_14_09_1_3, 1959_06_06_12_53_57_1_0, 1959_06_14_06_22_23_1_1, 1959_06_20_20_59_05_1_2,
  1959_06_27_23_12_08_1_3, 1959_07_06_03_00_14_1_0, 1959_07_13_13_01_44_1_1, 1959_07_20_04_32_35_1_2,
  1959_07_27_15_21_39_1_3, 1959_08_04_15_33_14_1_0, 1959_08_11_18_10_38_1_1, 1959_08_18_13_49_45_1_2,
  1959_08_26_09_03_13_1_3, 1959_09_03_02_54_51_1_0, 1959_09_09_23_08_14_1_1, 1959_09_17_01_51_09_1_2,
  1959_09_25_03_23_10_1_3, 1959_10_02_13_30_05_1_0, 1959_10_09_04_23_42_0_1, 1959_10_16_15_59_01_0_2,
  1959_10_24_20_23_42_0_3, 1959_10_31_22_40_25_0_0, 1959_11_07_13_24_20_0_1, 1959_11_15_09_42_46_0_2,
  1959_11_23_13_04_39_0_3, 1959_11_30_08_45_59_0_0, 1959_12_07_02_11_43_0_1, 1959_12_15_04_49_43_0_2,
  1959_12_23_03_28_52_0_3, 1959_12_29_19_09_45_0_0]

/-- data/astro/astro-1960.json. -/
def astro1960 : List Nat := [
  1960_01_05_18_52_01_0_1, 1960_01_13_23_51_16_0_2, 1960_01_21_15_00_52_0_3, 1960_01_28_06_16_38_0_0,
  1960_02_04_14_24_33_0_1, 1960_02_12_17_24_45_0_2, 1960_02_19_23_47_38_0_3, 1960_02_26_18_25_19_0_0,
  1960_03_05_11_04_52_0_1, 1960_03_13_08_27_07_0_2, 1960_03_20_06_40_44_0_3, 1960_03_27_07_39_10_0_0,
  1960_04_04_07_05_00_0_1, 1960_04_11_21_28_45_1_2, 1960_04_18_13_57_04_1_3, 1960_04_25_22_45_57_1_0,
  1960_05_04_02_01_13_1_1, 1960_05_11_06_43_20_1_2, 1960_05_17_20_54_28_1_3, 1960_05_25_13_27_22_1_0,
  1960_06_02_17_01_52_1_1, 1960_06_09_14_02_25_1_2, 1960_06_16_05_35_50_1_3, 1960_06_24_04_27_28_1_0,
  1960_07_02_04_48_46_1_1, 1960_07_08_20_37_12_1_2, 1960_07_15_16_42_59_1_3, 1960_07_23_19_30_43_1_0,
  1960_07_31_13_39_04_1_1, 1960_08_07_03_41_12_1_2, 1960_08_14_06_37_15_1_3, 1960_08_22_10_14_50_1_0,
  1960_08_29_20_22_50_1_1, 1960_09_05_12_18_37_1_2, 1960_09_12_23_20_28_1_3, 1960_09_21_00_11_49_1_0,
  1960_09_28_02_13_29_1_1, 1960_10_04_22_15_53_0_2, 1960_10_12_17_27_10_0_3, 1960_10_20_12_01_32_0_0,
  1960_10_27_07_34_29_0_1, 1960_11_03_11_57_34_0_2, 1960_11_11_13_49_44_0_3, 1960_11_18_23_45_43_0_0,
  1960_11_25_15_42_36_0_1, 1960_12_03_04_24_43_0_2, 1960_12_11_09_39_43_0_3, 1960_12_18_10_46_48_0_0,
  1960_12_25_02_30_03_0_1]

/-- data/astro/astro-1961.json. -/
def astro1961 : List Nat := [
  1961_01_01_23_06_20_0_2, 1961_01_10_03_02_58_0_3, 1961_01_16_21_30_50_0_0, 1961_01_23_16_13_15_0_1,
  1961_01_31_18_46_50_0_2, 1961_02_08_16_49_28_0_3, 1961_02_15_08_11_42_0_0, 1961_02_22_08_34_18_0_1,
  1961_03_02_13_35_12_0_2, 1961_03_10_02_57_02_0_3, 1961_03_16_18_52_18_0_0, 1961_03_24_02_48_35_0_1,
  1961_04_01_06_48_57_1_2, 1961_04_08_11_15_44_1_3, 1961_04_15_06_39_25_1_0, 1961_04_22_22_50_05_1_1,
  1961_04_30_19_42_44_1_2, 1961_05_07_16_57_58_1_3, 1961_05_14_17_56_07_1_0, 1961_05_22_17_19_13_1_1,
  1961_05_30_05_38_59_1_2, 1961_06_05_22_19_39_1_3, 1961_06_13_06_17_44_1_0, 1961_06_21_10_01_56_1_1,
  1961_06_28_13_39_23_1_2, 1961_07_05_04_33_49_1_3, 1961_07_12_20_12_02_1_0, 1961_07_21_00_13_52_1_1,
  1961_07_27_20_51_37_1_2, 1961_08_03_12_48_48_1_3, 1961_08_11_11_36_08_1_0, 1961_08_19_11_51_24_1_1,
  1961_08_26_04_13_53_1_2, 1961_09_02_00_06_26_1_3, 1961_09_10_03_49_18_1_0, 1961_09_17_21_23_31_1_1,
  1961_09_24_12_33_14_1_2, 1961_10_01_15_10_38_1_3, 1961_10_09_19_51_54_1_0, 1961_10_17_05_34_39_1_1,
  1961_10_23_22_30_04_1_2, 1961_10_31_08_59_19_0_3, 1961_11_08_09_57_49_0_0, 1961_11_15_12_12_57_0_1,
  1961_11_22_09_43_15_0_2, 1961_11_30_06_19_01_0_3, 1961_12_07_23_51_24_0_0, 1961_12_14_20_06_27_0_1,
  1961_12_22_00_41_51_0_2, 1961_12_30_03_57_30_0_3]

/-- data/astro/astro-1962.json. -/
def astro1962 : List Nat := [
  1962_01_06_12_35_32_0_0, 1962_01_13_05_02_23_0_1, 1962_01_20_18_16_42_0_2, 1962_01_28_23_37_43_0_3,
  1962_02_05_00_10_42_0_0, 1962_02_11_15_43_48_0_1, 1962_02_19_13_18_10_0_2, 1962_02_27_15_50_59_0_3,
  1962_03_06_10_32_04_0_0, 1962_03_13_04_39_34_0_1, 1962_03_21_07_56_11_0_2, 1962_03_29_05_11_24_1_3,
  1962_04_04_20_46_20_1_0, 1962_04_11_20_50_48_1_1, 1962_04_20_01_34_56_1_2, 1962_04_27_13_59_46_1_3,
  1962_05_04_05_26_28_1_0, 1962_05_11_13_44_04_1_1, 1962_05_19_15_33_45_1_2, 1962_05_26_20_06_34_1_3,
  1962_06_02_14_28_35_1_0, 1962_06_10_07_20_42_1_1, 1962_06_18_03_04_09_1_2, 1962_06_25_00_44_06_1_3,
  1962_07_02_00_53_47_1_0, 1962_07_10_00_39_24_1_1, 1962_07_17_12_42_35_1_2, 1962_07_24_05_20_01_1_3,
  1962_07_31_13_24_55_1_0, 1962_08_08_16_55_48_1_1, 1962_08_15_21_10_52_1_2, 1962_08_22_11_28_13_1_3,
  1962_08_30_04_09_44_1_0, 1962_09_07_07_45_34_1_1, 1962_09_14_05_12_22_1_2, 1962_09_20_20_36_51_1_3,
  1962_09_28_20_39_47_1_0, 1962_10_06_20_55_00_1_1, 1962_10_13_13_33_38_1_2, 1962_10_20_09_47_51_1_3,
  1962_10_28_13_05_01_0_0, 1962_11_05_07_15_02_0_1, 1962_11_11_22_04_01_0_2, 1962_11_19_02_09_36_0_3,
  1962_11_27_06_29_49_0_0, 1962_12_04_16_48_26_0_1, 1962_12_11_09_28_03_0_2, 1962_12_18_22_42_44_0_3,
  1962_12_26_22_59_13_0_0]

/-- data/astro/astro-1963.json. -/
def astro1963 : List Nat := [
  1963_01_03_01_02_32_0_1, 1963_01_09_23_08_48_0_2, 1963_01_17_20_35_40_0_3, 1963_01_25_13_42_39_0_0,
  1963_02_01_08_50_59_0_1, 1963_02_08_14_52_01_0_2, 1963_02_16_17_40_58_0_3, 1963_02_24_02_06_38_0_0,
  1963_03_02_17_17_56_0_1, 1963_03_10_07_48_35_0_2, 1963_03_18_12_09_42_0_3, 1963_03_25_12_10_36_0_0,
  1963_04_01_04_14_55_1_1, 1963_04_09_01_56_35_1_2, 1963_04_17_03_53_40_1_3, 1963_04_23_21_29_31_1_0,
  1963_04_30_16_06_53_1_1, 1963_05_08_18_23_07_1_2, 1963_05_16_14_36_35_1_3, 1963_05_23_05_00_37_1_0,
  1963_05_30_05_54_00_1_1, 1963_06_07_09_30_53_1_2, 1963_06_14_21_53_29_1_3, 1963_06_21_12_46_34_1_0,
  1963_06_28_21_22_42_1_1, 1963_07_06_22_56_17_1_2, 1963_07_14_02_57_36_1_3, 1963_07_20_21_43_30_1_0,
  1963_07_28_14_13_03_1_1, 1963_08_05_10_32_13_1_2, 1963_08_12_07_21_58_1_3, 1963_08_19_08_35_10_1_0,
  1963_08_27_07_54_57_1_1, 1963_09_03_20_35_07_1_2, 1963_09_10_12_43_35_1_3, 1963_09_17_21_51_08_1_0,
  1963_09_26_01_39_27_1_1, 1963_10_03_05_45_33_1_2, 1963_10_09_20_28_51_1_3, 1963_10_17_13_43_10_1_0,
  1963_10_25_18_20_37_1_1, 1963_11_01_13_56_50_0_2, 1963_11_08_06_38_20_0_3, 1963_11_16_06_51_13_0_0,
  1963_11_24_07_56_07_0_1, 1963_11_30_23_55_33_0_2, 1963_12_07_21_35_14_0_3, 1963_12_16_02_07_15_0_0,
  1963_12_23_19_54_44_0_1, 1963_12_30_11_04_58_0_2]

/-- data/astro/astro-1964.json. -/
def astro1964 : List Nat := [
  1964_01_06_15_59_37_0_3, 1964_01_14_20_44_36_0_0, 1964_01_22_05_29_00_0_1, 1964_01_28_23_23_28_0_2,
  1964_02_05_12_44_58_0_3, 1964_02_13_13_02_58_0_0, 1964_02_20_13_24_45_0_1, 1964_02_27_12_39_42_0_2,
  1964_03_06_10_02_36_0_3, 1964_03_14_02_15_45_0_0, 1964_03_20_20_39_56_0_1, 1964_03_28_03_48_40_1_2,
  1964_04_05_06_47_18_1_3, 1964_04_12_13_38_54_1_0, 1964_04_19_05_09_41_1_1, 1964_04_26_18_49_46_1_2,
  1964_05_04_23_21_24_1_3, 1964_05_11_22_02_51_1_0, 1964_05_18_13_42_23_1_1, 1964_05_26_10_29_09_1_2,
  1964_06_03_12_08_13_1_3, 1964_06_10_05_23_17_1_0, 1964_06_17_00_02_03_1_1, 1964_06_25_02_08_46_1_2,
  1964_07_02_21_31_25_1_3, 1964_07_09_12_31_33_1_0, 1964_07_16_12_47_18_1_1, 1964_07_24_16_59_07_1_2,
  1964_08_01_04_30_11_1_3, 1964_08_07_20_17_28_1_0, 1964_08_15_04_19_44_1_1, 1964_08_23_06_26_43_1_2,
  1964_08_30_10_16_18_1_3, 1964_09_06_05_34_22_1_0, 1964_09_13_22_23_55_1_1, 1964_09_21_18_32_37_1_2,
  1964_09_28_16_03_06_1_3, 1964_10_05_17_19_28_1_0, 1964_10_13_17_56_11_1_1, 1964_10_21_05_46_51_1_2,
  1964_10_27_22_00_45_0_3, 1964_11_04_07_16_33_0_0, 1964_11_12_12_20_02_0_1, 1964_11_19_15_44_16_0_2,
  1964_11_26_07_12_34_0_3, 1964_12_04_01_19_12_0_0, 1964_12_12_06_01_42_0_1, 1964_12_19_02_42_06_0_2,
  1964_12_25_19_28_33_0_3]

/-- data/astro/astro-1965.json. -/
def astro1965 : List Nat := [
  1965_01_02_21_07_47_0_0, 1965_01_10_20_59_47_0_1, 1965_01_17_13_37_42_0_2, 1965_01_24_11_08_44_0_3,
  1965_02_01_16_36_46_0_0, 1965_02_09_08_52_46_0_1, 1965_02_16_00_27_03_0_2, 1965_02_23_05_41_09_0_3,
  1965_03_03_09_57_50_0_0, 1965_03_10_17_52_57_0_1, 1965_03_17_11_24_31_0_2, 1965_03_25_02_38_16_1_3,
  1965_04_02_01_22_47_1_0, 1965_04_09_01_40_57_1_1, 1965_04_16_00_02_59_1_2, 1965_04_23_22_08_23_1_3,
  1965_05_01_12_57_37_1_0, 1965_05_08_07_21_01_1_1, 1965_05_15_12_53_03_1_2, 1965_05_23_15_42_18_1_3,
  1965_05_30_22_14_07_1_0, 1965_06_06_13_12_23_1_1, 1965_06_14_03_00_42_1_2, 1965_06_22_06_38_23_1_3,
  1965_06_29_05_53_32_1_0, 1965_07_05_20_37_18_1_1, 1965_07_13_18_03_03_1_2, 1965_07_21_18_55_12_1_3,
  1965_07_28_12_45_50_1_0, 1965_08_04_06_47_32_1_1, 1965_08_12_09_24_00_1_2, 1965_08_20_04_52_07_1_3,
  1965_08_26_19_51_18_1_0, 1965_09_02_20_27_23_1_1, 1965_09_11_00_33_48_1_2, 1965_09_18_12_59_42_1_3,
  1965_09_25_04_18_06_1_0, 1965_10_02_13_36_45_1_1, 1965_10_10_15_15_31_1_2, 1965_10_17_20_01_07_1_3,
  1965_10_24_14_11_34_0_0, 1965_11_01_08_25_39_0_1, 1965_11_09_04_16_57_0_2, 1965_11_16_01_55_27_0_3,
  1965_11_23_04_10_52_0_0, 1965_12_01_05_25_11_0_1, 1965_12_08_17_22_29_0_2, 1965_12_15_09_53_40_0_3,
  1965_12_22_21_04_18_0_0]

/-- data/astro/astro-1966.json. -/
def astro1966 : List Nat := [
  1966_01_07_05_17_03_0_2, 1966_01_13_20_01_35_0_3, 1966_01_21_15_47_40_0_0, 1966_01_29_19_49_33_0_1,
  1966_02_05_15_58_45_0_2, 1966_02_12_08_54_21_0_3, 1966_02_20_10_50_33_0_0, 1966_02_28_10_15_47_0_1,
  1966_03_07_01_46_11_0_2, 1966_03_14_00_20_09_0_3, 1966_03_22_05_47_47_1_0, 1966_03_29_21_43_51_1_1,
  1966_04_05_12_13_57_1_2, 1966_04_12_18_29_17_1_3, 1966_04_20_21_36_41_1_0, 1966_04_28_04_49_27_1_1,
  1966_05_04_22_00_59_1_2, 1966_05_12_12_20_24_1_3, 1966_05_20_10_43_39_1_0, 1966_05_27_09_50_33_1_1,
  1966_06_03_08_40_33_1_2, 1966_06_11_06_00_09_1_3, 1966_06_18_21_09_32_1_0, 1966_06_25_14_22_48_1_1,
  1966_07_02_20_36_43_1_2, 1966_07_10_22_45_04_1_3, 1966_07_18_05_30_23_1_0, 1966_07_24_20_00_07_1_1,
  1966_08_01_10_05_42_1_2, 1966_08_09_13_57_14_1_3, 1966_08_16_12_47_52_1_0, 1966_08_23_04_02_03_1_1,
  1966_08_31_01_14_14_1_2, 1966_09_08_03_07_57_1_3, 1966_09_14_20_13_23_1_0, 1966_09_21_15_24_34_1_1,
  1966_09_29_17_48_23_1_2, 1966_10_07_14_08_36_1_3, 1966_10_14_04_51_53_1_0, 1966_10_21_06_34_13_1_1,
  1966_10_29_10_01_31_0_2, 1966_11_05_22_18_36_0_3, 1966_11_12_14_27_10_0_0, 1966_11_20_00_20_35_0_1,
  1966_11_28_02_42_01_0_2, 1966_12_05_06_23_04_0_3, 1966_12_12_03_14_47_0_0, 1966_12_19_21_42_35_0_1,
  1966_12_27_17_44_53_0_2]

/-- data/astro/astro-1967.json. -/
def astro1967 : List Nat := [
  1967_01_03_14_20_24_0_3, 1967_01_10_18_07_49_0_0, 1967_01_18_19_42_59_0_1, 1967_01_26_06_42_09_0_2,
  1967_02_01_23_04_37_0_3, 1967_02_09_10_45_48_0_0, 1967_02_17_15_57_17_0_1, 1967_02_24_17_44_50_0_2,
  1967_03_03_09_11_57_0_3, 1967_03_11_04_31_30_0_0, 1967_03_19_09_31_50_1_1, 1967_03_26_04_21_59_1_2,
  1967_04_01_21_59_40_1_3, 1967_04_09_23_21_39_1_0, 1967_04_17_21_47_36_1_1, 1967_04_24_13_03_53_1_2,
  1967_05_01_11_34_00_1_3, 1967_05_09_15_56_44_1_0, 1967_05_17_06_17_09_1_1, 1967_05_23_21_22_05_1_2,
  1967_05_31_02_53_33_1_3, 1967_06_08_06_14_35_1_0, 1967_06_15_12_11_37_1_1, 1967_06_22_05_56_34_1_2,
  1967_06_29_19_41_14_1_3, 1967_07_07_18_00_31_1_0, 1967_07_14_16_53_24_1_1, 1967_07_21_15_38_58_1_2,
  1967_07_29_13_15_24_1_3, 1967_08_06_03_48_20_1_0, 1967_08_12_21_45_27_1_1, 1967_08_20_03_26_25_1_2,
  1967_08_28_06_35_49_1_3, 1967_09_04_12_36_54_1_0, 1967_09_11_04_07_17_1_1, 1967_09_18_17_59_51_1_2,
  1967_09_26_22_44_30_1_3, 1967_10_03_21_23_46_1_0, 1967_10_10_13_12_05_1_1, 1967_10_18_11_12_09_1_2,
  1967_10_26_13_04_34_1_3, 1967_11_02_05_48_33_0_0, 1967_11_09_01_00_14_0_1, 1967_11_17_04_54_10_0_2,
  1967_11_25_00_23_57_0_3, 1967_12_01_16_10_32_0_0, 1967_12_08_17_57_38_0_1, 1967_12_16_23_22_59_0_2,
  1967_12_24_10_48_46_0_3]

/-- data/astro/astro-1968.json. -/
def astro1968 : List Nat := [
  1968_01_07_14_23_01_0_1, 1968_01_15_16_13_03_0_2, 1968_01_22_19_38_53_0_3, 1968_01_29_16_31_13_0_0,
  1968_02_06_12_20_09_0_1, 1968_02_14_06_44_37_0_2, 1968_02_21_04_29_05_1_3, 1968_02_28_07_57_42_1_0,
  1968_03_07_10_20_21_1_1, 1968_03_14_19_53_51_1_2, 1968_03_21_12_08_58_1_3, 1968_03_28_23_50_03_1_0,
  1968_04_06_04_27_58_1_1, 1968_04_13_05_52_47_1_2, 1968_04_19_20_36_16_1_3, 1968_04_27_16_22_46_1_0,
  1968_05_05_18_54_27_1_1, 1968_05_12_14_05_14_1_2, 1968_05_19_06_45_37_1_3, 1968_05_27_08_31_13_1_0,
  1968_06_04_05_46_58_1_1, 1968_06_10_21_13_13_1_2, 1968_06_17_19_14_44_1_3, 1968_06_25_23_25_27_1_0,
  1968_07_03_13_42_30_1_1, 1968_07_10_04_17_53_1_2, 1968_07_17_10_12_17_1_3, 1968_07_25_12_49_45_1_0,
  1968_08_01_19_35_27_1_1, 1968_08_08_12_32_20_1_2, 1968_08_16_03_14_07_1_3, 1968_08_24_00_56_23_1_0,
  1968_08_31_00_36_07_1_1, 1968_09_06_23_07_02_1_2, 1968_09_14_21_32_06_1_3, 1968_09_22_12_07_36_1_0,
  1968_09_29_06_08_11_1_1, 1968_10_06_12_46_23_1_2, 1968_10_14_16_07_03_1_3, 1968_10_21_22_43_34_1_0,
  1968_10_28_13_40_49_1_1, 1968_11_05_05_25_38_1_2, 1968_11_13_09_55_05_1_3, 1968_11_20_09_01_18_1_0,
  1968_11_27_00_30_59_1_1, 1968_12_05_00_08_29_1_2, 1968_12_13_01_50_50_1_3, 1968_12_19_19_19_18_1_0,
  1968_12_26_15_14_25_1_1]

/-- data/astro/astro-1969.json. -/
def astro1969 : List Nat := [
  1969_01_03_19_28_43_1_2, 1969_01_11_15_01_15_1_3, 1969_01_18_06_00_26_1_0, 1969_01_25_09_22_38_1_1,
  1969_02_02_13_57_06_1_2, 1969_02_10_01_09_01_1_3, 1969_02_16_17_27_36_1_0, 1969_02_24_05_29_55_1_1,
  1969_03_04_06_18_56_1_2, 1969_03_11_08_45_22_1_3, 1969_03_18_05_54_12_1_0, 1969_03_26_01_48_58_1_1,
  1969_04_02_19_47_13_1_2, 1969_04_09_14_59_18_1_3, 1969_04_16_19_18_32_1_0, 1969_04_24_20_46_10_1_1,
  1969_05_02_06_15_27_1_2, 1969_05_08_21_12_55_1_3, 1969_05_16_09_28_22_1_0, 1969_05_24_13_16_31_1_1,
  1969_05_31_14_19_44_1_2, 1969_06_07_04_40_35_1_3, 1969_06_15_00_10_18_1_0, 1969_06_23_02_45_24_1_1,
  1969_06_29_21_05_01_1_2, 1969_07_06_14_18_00_1_3, 1969_07_14_15_12_08_1_0, 1969_07_22_13_10_31_1_1,
  1969_07_29_03_45_54_1_2, 1969_08_05_02_39_24_1_3, 1969_08_13_06_16_19_1_0, 1969_08_20_21_03_30_1_1,
  1969_08_27_11_32_28_1_2, 1969_09_03_17_58_36_1_3, 1969_09_11_20_54_53_1_0, 1969_09_19_03_24_40_1_1,
  1969_09_25_21_20_13_1_2, 1969_10_03_12_06_05_1_3, 1969_10_11_10_37_43_1_0, 1969_10_18_09_31_48_1_1,
  1969_10_25_09_43_20_1_2, 1969_11_02_08_15_04_1_3, 1969_11_09_23_09_53_1_0, 1969_11_16_16_45_07_1_1,
  1969_11_24_00_53_07_1_2, 1969_12_02_04_51_19_1_3, 1969_12_09_10_41_03_1_0, 1969_12_16_02_09_19_1_1,
  1969_12_23_18_34_46_1_2]

/-- data/astro/astro-1971.json. -/
def astro1971 : List Nat := [
  1971_01_04_05_55_28_1_1, 1971_01_11_14_19_51_1_2, 1971_01_19_19_08_29_1_3, 1971_01_26_23_54_56_1_0,
  1971_02_02_15_31_06_1_1, 1971_02_10_08_40_50_1_2, 1971_02_18_13_14_09_1_3, 1971_02_25_10_48_50_1_0,
  1971_03_04_03_01_26_1_1, 1971_03_12_03_33_08_1_2, 1971_03_20_03_30_01_1_3, 1971_03_26_20_24_10_1_0,
  1971_04_02_16_45_59_1_1, 1971_04_10_21_10_21_1_2, 1971_04_18_13_57_40_1_3, 1971_04_25_05_02_41_1_0,
  1971_05_02_08_33_27_1_1, 1971_05_10_12_24_31_1_2, 1971_05_17_21_15_10_1_3, 1971_05_24_13_32_56_1_0,
  1971_06_01_01_41_09_1_1, 1971_06_09_01_04_42_1_2, 1971_06_16_02_24_59_1_3, 1971_06_22_22_58_24_1_0,
  1971_06_30_19_10_12_1_1, 1971_07_08_11_38_02_1_2, 1971_07_15_06_48_14_1_3, 1971_07_22_10_15_57_1_0,
  1971_07_30_12_07_22_1_1, 1971_08_06_20_44_04_1_2, 1971_08_13_11_57_08_1_3, 1971_08_20_23_54_22_1_0,
  1971_08_29_03_57_17_1_1, 1971_09_05_05_03_58_1_2, 1971_09_11_19_25_03_1_3, 1971_09_19_15_43_16_1_0,
  1971_09_27_18_18_36_1_1, 1971_10_04_13_20_45_1_2, 1971_10_11_06_30_44_1_3, 1971_10_19_08_59_47_1_0,
  1971_10_27_06_55_06_1_1, 1971_11_02_21_20_24_0_2, 1971_11_09_20_52_13_0_3, 1971_11_18_01_46_16_0_0,
  1971_11_25_16_37_12_0_1, 1971_12_02_07_48_48_0_2, 1971_12_09_16_02_38_0_3, 1971_12_17_19_02_53_0_0,
  1971_12_25_01_35_14_0_1]

/-- data/astro/astro-1972.json. -/
def astro1972 : List Nat := [
  1972_01_08_13_31_07_0_3, 1972_01_16_10_52_20_0_0, 1972_01_23_09_29_06_0_1, 1972_01_30_10_57_58_0_2,
  1972_02_07_11_12_46_0_3, 1972_02_15_00_28_56_0_0, 1972_02_21_17_20_39_0_1, 1972_02_29_03_11_20_0_2,
  1972_03_08_07_07_04_0_3, 1972_03_15_11_35_09_0_0, 1972_03_22_03_11_52_1_1, 1972_03_29_21_04_56_1_2,
  1972_04_07_00_45_37_1_3, 1972_04_13_21_31_29_1_0, 1972_04_20_13_44_48_1_1, 1972_04_28_13_44_11_1_2,
  1972_05_06_13_27_06_1_3, 1972_05_13_05_08_48_1_0, 1972_05_20_02_15_20_1_1, 1972_05_28_05_27_44_1_2,
  1972_06_04_22_22_06_1_3, 1972_06_11_12_30_53_1_0, 1972_06_18_16_40_04_1_1, 1972_06_26_19_46_51_1_2,
  1972_07_04_04_26_05_1_3, 1972_07_10_20_39_41_1_0, 1972_07_18_08_45_40_1_1, 1972_07_26_08_24_47_1_2,
  1972_08_02_09_03_13_1_3, 1972_08_09_06_26_36_1_0, 1972_08_17_02_10_05_1_1, 1972_08_24_19_23_12_1_2,
  1972_08_31_13_49_26_1_3, 1972_09_07_18_28_56_1_0, 1972_09_15_20_14_05_1_1, 1972_09_23_05_08_21_1_2,
  1972_09_29_20_17_41_1_3, 1972_10_07_09_08_16_1_0, 1972_10_15_13_55_22_1_1, 1972_10_22_14_26_35_1_2,
  1972_10_29_04_42_31_0_3, 1972_11_06_01_21_48_0_0, 1972_11_14_05_00_48_0_1, 1972_11_20_23_07_48_0_2,
  1972_11_27_17_45_41_0_3, 1972_12_05_20_24_28_0_0, 1972_12_13_18_35_19_0_1, 1972_12_20_09_45_42_0_2,
  1972_12_27_10_27_58_0_3]

/-- data/astro/astro-1973.json. -/
def astro1973 : List Nat := [
  1973_01_04_15_42_26_0_0, 1973_01_12_05_26_23_0_1, 1973_01_18_21_28_13_0_2, 1973_01_26_06_05_55_0_3,
  1973_02_03_09_23_05_0_0, 1973_02_10_14_04_43_0_1, 1973_02_17_10_06_18_0_2, 1973_02_25_03_11_53_0_3,
  1973_03_05_00_08_19_0_0, 1973_03_11_21_25_27_0_1, 1973_03_19_00_32_42_1_2, 1973_03_27_00_47_38_1_3,
  1973_04_03_12_45_55_1_0, 1973_04_10_05_28_01_1_1, 1973_04_17_14_49_59_1_2, 1973_04_25_18_59_47_1_3,
  1973_05_02_21_55_39_1_0, 1973_05_09_13_06_48_1_1, 1973_05_17_05_57_56_1_2, 1973_05_25_09_40_50_1_3,
  1973_06_01_05_35_07_1_0, 1973_06_07_22_11_00_1_1, 1973_06_15_21_34_59_1_2, 1973_06_23_20_45_57_1_3,
  1973_06_30_12_39_28_1_0, 1973_07_07_09_25_56_1_1, 1973_07_15_12_56_48_1_2, 1973_07_23_04_58_13_1_3,
  1973_07_29_19_59_23_1_0, 1973_08_05_23_27_00_1_1, 1973_08_14_03_17_51_1_2, 1973_08_21_11_23_05_1_3,
  1973_08_28_04_25_42_1_0, 1973_09_04_16_22_03_1_1, 1973_09_12_16_17_51_1_2, 1973_09_19_17_11_47_1_3,
  1973_09_26_14_53_40_1_0, 1973_10_04_11_31_38_1_1, 1973_10_12_04_10_37_1_2, 1973_10_18_23_34_33_1_3,
  1973_10_26_04_16_22_1_0, 1973_11_03_06_28_56_0_1, 1973_11_10_14_28_26_0_2, 1973_11_17_06_36_43_0_3,
  1973_11_24_19_55_58_0_0, 1973_12_03_01_28_55_0_1, 1973_12_10_01_36_00_0_2, 1973_12_16_17_14_44_0_3,
  1973_12_24_15_08_13_0_0]

/-- data/astro/astro-1974.json. -/
def astro1974 : List Nat := [
  1974_01_01_18_06_54_0_1, 1974_01_08_12_37_00_0_2, 1974_01_15_07_05_22_0_3, 1974_01_23_11_02_53_0_0,
  1974_01_31_07_39_19_0_1, 1974_02_06_23_24_24_0_2, 1974_02_14_00_05_24_0_3, 1974_02_22_05_35_09_0_0,
  1974_03_01_18_02_21_0_1, 1974_03_08_10_02_55_0_2, 1974_03_15_19_16_20_0_3, 1974_03_23_22_25_28_1_0,
  1974_03_31_02_44_09_1_1, 1974_04_06_22_00_05_1_2, 1974_04_14_15_57_51_1_3, 1974_04_22_11_17_24_1_0,
  1974_04_29_08_39_32_1_1, 1974_05_06_09_54_09_1_2, 1974_05_14_10_29_05_1_3, 1974_05_21_21_34_39_1_0,
  1974_05_28_14_03_27_1_1, 1974_06_04_23_09_23_1_2, 1974_06_13_02_46_01_1_3, 1974_06_20_05_55_39_1_0,
  1974_06_26_20_20_07_1_1, 1974_07_04_13_40_23_1_2, 1974_07_12_16_28_59_1_3, 1974_07_19_13_06_16_1_0,
  1974_07_26_04_50_35_1_1, 1974_08_03_04_57_28_1_2, 1974_08_11_03_46_47_1_3, 1974_08_17_20_01_22_1_0,
  1974_08_24_16_37_30_1_1, 1974_09_01_20_25_35_1_2, 1974_09_09_13_01_38_1_3, 1974_09_16_03_44_58_1_0,
  1974_09_23_08_06_25_1_1, 1974_10_01_11_38_59_1_2, 1974_10_08_20_46_17_1_3, 1974_10_15_13_24_27_1_0,
  1974_10_23_02_51_47_1_1, 1974_10_31_01_20_20_0_2, 1974_11_07_02_48_24_0_3, 1974_11_14_00_53_35_0_0,
  1974_11_21_22_39_32_0_1, 1974_11_29_15_11_30_0_2, 1974_12_06_10_11_46_0_3, 1974_12_13_16_26_09_0_0,
  1974_12_21_19_44_56_0_1, 1974_12_29_03_52_09_0_2]

/-- data/astro/astro-1975.json. -/
def astro1975 : List Nat := [
  1975_01_04_19_06_10_0_3, 1975_01_12_10_21_24_0_0, 1975_01_20_15_16_12_0_1, 1975_01_27_15_10_33_0_2,
  1975_02_03_06_24_44_0_3, 1975_02_11_05_18_30_0_0, 1975_02_19_07_39_35_0_1, 1975_02_26_01_15_22_0_2,
  1975_03_04_20_21_00_0_3, 1975_03_12_23_48_47_0_0, 1975_03_20_21_04_57_1_1, 1975_03_27_11_36_27_1_2,
  1975_04_03_13_25_13_1_3, 1975_04_11_17_39_58_1_0, 1975_04_19_05_40_59_1_1, 1975_04_25_20_54_41_1_2,
  1975_05_03_06_43_49_1_3, 1975_05_11_08_05_25_1_0, 1975_05_18_11_28_29_1_1, 1975_05_25_06_49_52_1_2,
  1975_06_02_00_23_12_1_3, 1975_06_09_19_49_07_1_0, 1975_06_16_15_57_51_1_1, 1975_06_23_17_53_33_1_2,
  1975_07_01_17_38_37_1_3, 1975_07_09_05_09_47_1_0, 1975_07_15_20_46_29_1_1, 1975_07_23_06_28_11_1_2,
  1975_07_31_09_50_02_1_3, 1975_08_07_12_57_08_1_0, 1975_08_14_03_23_34_1_1, 1975_08_21_20_47_50_1_2,
  1975_08_30_00_20_45_1_3, 1975_09_05_20_18_43_1_0, 1975_09_12_12_58_55_1_1, 1975_09_20_12_51_12_1_2,
  1975_09_28_12_46_28_1_3, 1975_10_05_04_23_26_1_0, 1975_10_12_02_14_57_1_1, 1975_10_20_06_07_03_1_2,
  1975_10_27_22_07_18_0_3, 1975_11_03_13_05_10_0_0, 1975_11_10_18_20_30_0_1, 1975_11_18_22_29_34_0_2,
  1975_11_26_06_52_23_0_3, 1975_12_03_00_50_55_0_0, 1975_12_10_14_39_55_0_1, 1975_12_18_14_40_49_0_2,
  1975_12_25_14_52_48_0_3]

/-- data/astro/astro-1976.json. -/
def astro1976 : List Nat := [
  1976_01_01_14_41_22_0_0, 1976_01_09_12_41_00_0_1, 1976_01_17_04_48_23_0_2, 1976_01_23_23_05_37_0_3,
  1976_01_31_06_21_43_0_0, 1976_02_08_10_05_51_0_1, 1976_02_15_16_44_35_0_2, 1976_02_22_08_17_08_0_3,
  1976_02_29_23_26_15_0_0, 1976_03_09_04_38_37_0_1, 1976_03_16_02_53_46_0_2, 1976_03_22_19_55_24_1_3,
  1976_03_30_18_09_05_1_0, 1976_04_07_20_01_47_1_1, 1976_04_14_12_49_06_1_2, 1976_04_21_08_14_50_1_3,
  1976_04_29_11_20_18_1_0, 1976_05_07_06_16_27_1_1, 1976_05_13_21_03_29_1_2, 1976_05_20_22_22_52_1_3,
  1976_05_29_02_47_22_1_0, 1976_06_05_13_19_06_1_1, 1976_06_12_05_14_06_1_2, 1976_06_19_14_16_31_1_3,
  1976_06_27_15_50_11_1_0, 1976_07_04_18_28_21_1_1, 1976_07_11_14_08_15_1_2, 1976_07_19_07_30_36_1_3,
  1976_07_27_02_38_36_1_0, 1976_08_02_23_07_09_1_1, 1976_08_10_00_42_57_1_2, 1976_08_18_01_13_31_1_3,
  1976_08_25_12_00_28_1_0, 1976_09_01_04_36_52_1_1, 1976_09_08_13_52_00_1_2, 1976_09_16_18_21_07_1_3,
  1976_09_23_20_54_59_1_0, 1976_09_30_12_13_56_1_1, 1976_10_08_05_56_30_1_2, 1976_10_16_09_59_47_1_3,
  1976_10_23_06_09_54_1_0, 1976_10_29_22_06_07_0_1, 1976_11_06_23_16_20_0_2, 1976_11_14_22_40_02_0_3,
  1976_11_21_15_11_16_0_0, 1976_11_28_12_59_26_0_1, 1976_12_06_18_16_16_0_2, 1976_12_14_10_15_20_0_3,
  1976_12_21_02_09_09_0_0, 1976_12_28_07_48_27_0_1]

/-- data/astro/astro-1977.json. -/
def astro1977 : List Nat := [
  1977_01_05_12_12_20_0_2, 1977_01_12_19_56_08_0_3, 1977_01_19_14_13_12_0_0, 1977_01_27_05_11_49_0_1,
  1977_02_04_03_58_31_0_2, 1977_02_11_04_08_42_0_3, 1977_02_18_03_39_31_0_0, 1977_02_26_02_50_29_0_1,
  1977_03_05_17_15_35_0_2, 1977_03_12_11_36_32_0_3, 1977_03_19_18_35_31_0_0, 1977_03_27_23_27_51_1_1,
  1977_04_04_05_11_02_1_2, 1977_04_10_20_16_40_1_3, 1977_04_18_11_38_06_1_0, 1977_04_26_15_43_23_1_1,
  1977_05_03_14_04_45_1_2, 1977_05_10_05_10_00_1_3, 1977_05_18_03_53_27_1_0, 1977_05_26_04_20_46_1_1,
  1977_06_01_21_31_16_1_2, 1977_06_08_16_08_13_1_3, 1977_06_16_19_23_56_1_0, 1977_06_24_13_44_19_1_1,
  1977_07_01_04_23_59_1_2, 1977_07_08_05_39_49_1_3, 1977_07_16_09_36_39_1_0, 1977_07_23_20_38_54_1_1,
  1977_07_30_11_51_48_1_2, 1977_08_06_21_40_09_1_3, 1977_08_14_22_30_19_1_0, 1977_08_22_02_05_10_1_1,
  1977_08_28_21_09_03_1_2, 1977_09_05_15_32_52_1_3, 1977_09_13_10_21_40_1_0, 1977_09_20_07_18_56_1_1,
  1977_09_27_09_16_31_1_2, 1977_10_05_10_21_28_1_3, 1977_10_12_21_29_28_1_0, 1977_10_19_13_46_37_1_1,
  1977_10_26_23_35_26_0_2, 1977_11_04_04_00_02_0_3, 1977_11_11_07_08_31_0_0, 1977_11_17_21_53_03_0_1,
  1977_11_25_17_32_17_0_2, 1977_12_03_21_17_51_0_3, 1977_12_10_17_32_52_0_0, 1977_12_17_10_37_04_0_1,
  1977_12_25_12_50_11_0_2]

/-- data/astro/astro-1978.json. -/
def astro1978 : List Nat := [
  1978_01_02_12_08_38_0_3, 1978_01_09_04_01_09_0_0, 1978_01_16_03_02_44_0_1, 1978_01_24_07_57_00_0_2,
  1978_01_31_23_52_11_0_3, 1978_02_07_14_56_37_0_0, 1978_02_14_22_10_33_0_1, 1978_02_23_01_28_31_0_2,
  1978_03_02_08_35_24_0_3, 1978_03_09_02_39_33_0_0, 1978_03_16_18_21_58_0_1, 1978_03_24_17_22_56_1_2,
  1978_03_31_16_12_23_1_3, 1978_04_07_16_18_38_1_0, 1978_04_15_14_57_47_1_1, 1978_04_23_05_13_58_1_2,
  1978_04_29_22_03_41_1_3, 1978_05_07_05_49_54_1_0, 1978_05_15_08_41_51_1_1, 1978_05_22_14_18_59_1_2,
  1978_05_29_04_31_46_1_3, 1978_06_05_20_03_54_1_0, 1978_06_13_23_45_54_1_1, 1978_06_20_21_32_09_1_2,
  1978_06_27_12_45_14_1_3, 1978_07_05_10_51_36_1_0, 1978_07_13_11_50_12_1_1, 1978_07_20_04_05_57_1_2,
  1978_07_26_23_31_55_1_3, 1978_08_04_02_00_52_1_0, 1978_08_11_21_07_03_1_1, 1978_08_18_11_14_16_1_2,
  1978_08_25_13_18_06_1_3, 1978_09_02_17_08_10_1_0, 1978_09_10_04_20_24_1_1, 1978_09_16_20_00_32_1_2,
  1978_09_24_06_08_12_1_3, 1978_10_02_07_39_25_1_0, 1978_10_09_10_38_01_1_1, 1978_10_16_07_08_47_1_2,
  1978_10_24_01_35_27_1_3, 1978_10_31_20_05_19_0_0, 1978_11_07_16_18_32_0_1, 1978_11_14_19_59_46_0_2,
  1978_11_22_21_26_14_0_3, 1978_11_30_08_18_49_0_0, 1978_12_07_00_34_39_0_1, 1978_12_14_12_30_54_0_2,
  1978_12_22_17_43_08_0_3, 1978_12_29_19_36_14_0_0]

/-- data/astro/astro-1979.json. -/
def astro1979 : List Nat := [
  1979_01_05_11_15_31_0_1, 1979_01_13_07_09_14_0_2, 1979_01_21_11_24_36_0_3, 1979_01_28_06_20_52_0_0,
  1979_02_04_00_36_41_0_1, 1979_02_12_02_40_00_0_2, 1979_02_20_01_17_56_0_3, 1979_02_26_16_47_09_0_0,
  1979_03_05_16_23_20_0_1, 1979_03_13_21_15_27_0_2, 1979_03_21_12_22_20_1_3, 1979_03_28_04_01_39_1_0,
  1979_04_04_10_58_28_1_1, 1979_04_12_14_17_20_1_2, 1979_04_19_19_30_35_1_3, 1979_04_26_14_17_02_1_0,
  1979_05_04_05_26_48_1_1, 1979_05_12_03_03_27_1_2, 1979_05_19_00_57_44_1_3, 1979_05_26_01_02_34_1_0,
  1979_06_02_23_38_35_1_1, 1979_06_10_12_57_31_1_2, 1979_06_17_06_02_25_1_3, 1979_06_24_12_59_34_1_0,
  1979_07_02_16_24_29_1_1, 1979_07_09_21_01_30_1_2, 1979_07_16_12_00_44_1_3, 1979_07_24_02_41_51_1_0,
  1979_08_01_06_58_12_1_1, 1979_08_08_04_23_04_1_2, 1979_08_14_20_04_04_1_3, 1979_08_22_18_11_14_1_0,
  1979_08_30_19_09_46_1_1, 1979_09_06_11_59_39_1_2, 1979_09_13_07_16_59_1_3, 1979_09_21_10_46_55_1_0,
  1979_09_29_05_20_16_1_1, 1979_10_05_20_35_43_1_2, 1979_10_12_22_25_07_1_3, 1979_10_21_03_23_04_1_0,
  1979_10_28_13_06_25_0_1, 1979_11_04_05_47_12_0_2, 1979_11_11_16_25_26_0_3, 1979_11_19_18_03_39_0_0,
  1979_11_26_21_09_24_0_1, 1979_12_03_18_07_47_0_2, 1979_12_11_13_59_59_0_3, 1979_12_19_08_23_39_0_0,
  1979_12_26_05_12_09_0_1]

/-- data/astro/astro-1980.json. -/
def astro1980 : List Nat := [
  1980_01_02_09_02_37_0_2, 1980_01_10_11_50_42_0_3, 1980_01_17_21_20_08_0_0, 1980_01_24_13_59_35_0_1,
  1980_02_01_02_21_56_0_2, 1980_02_09_07_36_55_0_3, 1980_02_16_08_52_05_0_0, 1980_02_23_00_15_24_0_1,
  1980_03_01_21_00_16_0_2, 1980_03_09_23_50_14_0_3, 1980_03_16_19_57_23_1_0, 1980_03_23_13_32_37_1_1,
  1980_03_31_16_14_58_1_2, 1980_04_08_13_07_26_1_3, 1980_04_15_04_48_01_1_0, 1980_04_22_04_00_28_1_1,
  1980_04_30_08_37_16_1_2, 1980_05_07_21_51_48_1_3, 1980_05_14_13_02_19_1_0, 1980_05_21_20_16_28_1_1,
  1980_05_29_22_29_58_1_2, 1980_06_06_03_54_59_1_3, 1980_06_12_21_40_37_1_0, 1980_06_20_13_32_11_1_1,
  1980_06_28_10_04_44_1_2, 1980_07_05_08_29_31_1_3, 1980_07_12_07_47_50_1_0, 1980_07_20_06_51_38_1_1,
  1980_07_27_19_56_27_1_2, 1980_08_03_13_03_05_1_3, 1980_08_10_20_11_10_1_0, 1980_08_18_23_29_37_1_1,
  1980_08_26_04_44_36_1_2, 1980_09_01_19_10_07_1_3, 1980_09_09_11_01_40_1_0, 1980_09_17_14_56_01_1_1,
  1980_09_24_13_09_18_1_2, 1980_10_01_04_19_42_1_3, 1980_10_09_03_50_36_1_0, 1980_10_17_04_48_13_1_1,
  1980_10_23_21_52_51_1_2, 1980_10_30_16_33_46_0_3, 1980_11_07_20_42_59_0_0, 1980_11_15_15_47_08_0_1,
  1980_11_22_06_39_27_0_2, 1980_11_29_09_58_48_0_3, 1980_12_07_14_35_13_0_0, 1980_12_15_01_47_03_0_1,
  1980_12_21_18_08_27_0_2, 1980_12_29_06_32_08_0_3]

/-- data/astro/astro-1981.json. -/
def astro1981 : List Nat := [
  1981_01_06_07_24_16_0_0, 1981_01_13_10_10_30_0_1, 1981_01_20_07_39_22_0_2, 1981_01_28_04_20_09_0_3,
  1981_02_04_22_14_33_0_0, 1981_02_11_17_50_05_0_1, 1981_02_18_22_58_38_0_2, 1981_02_27_01_16_41_0_3,
  1981_03_06_10_32_24_0_0, 1981_03_13_01_51_45_0_1, 1981_03_20_15_23_05_0_2, 1981_03_28_19_36_55_0_3,
  1981_04_04_21_21_10_1_0, 1981_04_11_12_11_41_1_1, 1981_04_19_08_59_58_1_2, 1981_04_27_11_16_56_1_3,
  1981_05_04_05_21_06_1_0, 1981_05_10_23_22_31_1_1, 1981_05_19_01_05_06_1_2, 1981_05_26_22_02_18_1_3,
  1981_06_02_12_33_55_1_0, 1981_06_09_12_33_47_1_1, 1981_06_17_16_06_29_1_2, 1981_06_25_05_27_03_1_3,
  1981_07_01_20_05_25_1_0, 1981_07_09_03_40_23_1_1, 1981_07_17_05_41_20_1_2, 1981_07_24_10_41_56_1_3,
  1981_07_31_04_54_03_1_0, 1981_08_07_20_27_57_1_1, 1981_08_15_17_39_16_1_2, 1981_08_22_15_17_39_1_3,
  1981_08_29_15_45_01_1_0, 1981_09_06_14_27_44_1_1, 1981_09_14_04_11_04_1_2, 1981_09_20_20_49_34_1_3,
  1981_09_28_05_08_10_1_0, 1981_10_06_08_46_43_1_1, 1981_10_13_13_51_22_1_2, 1981_10_20_04_42_38_1_3,
  1981_10_27_20_13_59_0_0, 1981_11_05_01_09_30_0_1, 1981_11_11_22_28_07_0_2, 1981_11_18_14_55_23_0_3,
  1981_11_26_14_39_09_0_0, 1981_12_04_16_22_21_0_1, 1981_12_11_08_42_38_0_2, 1981_12_18_05_48_18_0_3,
  1981_12_26_10_10_41_0_0]

/-- data/astro/astro-1982.json. -/
def astro1982 : List Nat := [
  1982_01_03_04_45_30_0_1, 1982_01_09_19_53_38_0_2, 1982_01_16_23_59_26_0_3, 1982_01_25_04_56_56_0_0,
  1982_02_01_14_27_55_0_1, 1982_02_08_07_57_38_0_2, 1982_02_15_20_23_33_0_3, 1982_02_23_21_15_07_0_0,
  1982_03_02_22_15_39_0_1, 1982_03_09_20_45_42_0_2, 1982_03_17_17_17_44_0_3, 1982_03_25_10_19_47_0_0,
  1982_04_01_06_09_15_1_1, 1982_04_08_11_18_57_1_2, 1982_04_16_13_44_52_1_3, 1982_04_23_21_30_30_1_0,
  1982_04_30_13_08_21_1_1, 1982_05_08_01_45_22_1_2, 1982_05_16_06_13_18_1_3, 1982_05_23_05_41_53_1_0,
  1982_05_29_21_07_31_1_1, 1982_06_06_17_00_19_1_2, 1982_06_14_19_07_26_1_3, 1982_06_21_12_53_08_1_0,
  1982_06_28_06_57_16_1_1, 1982_07_06_08_32_55_1_2, 1982_07_14_04_47_58_1_3, 1982_07_20_19_57_43_1_0,
  1982_07_27_19_22_27_1_1, 1982_08_04_23_35_28_1_2, 1982_08_12_12_09_46_1_3, 1982_08_19_03_45_51_1_0,
  1982_08_26_10_50_08_1_1, 1982_09_03_13_30_15_1_2, 1982_09_10_18_20_12_1_3, 1982_09_17_13_09_40_1_0,
  1982_09_25_05_07_27_1_1, 1982_10_03_02_10_36_1_2, 1982_10_10_00_28_17_1_3, 1982_10_17_01_04_13_1_0,
  1982_10_25_00_07_45_0_1, 1982_11_01_12_58_41_0_2, 1982_11_08_06_40_08_0_3, 1982_11_15_15_10_35_0_0,
  1982_11_23_20_05_44_0_1, 1982_12_01_00_22_31_0_2, 1982_12_07_15_55_34_0_3, 1982_12_15_09_19_29_0_0,
  1982_12_23_14_17_17_0_1, 1982_12_30_11_33_47_0_2]

/-- data/astro/astro-1983.json. -/
def astro1983 : List Nat := [
  1983_01_06_04_02_01_0_3, 1983_01_14_05_09_05_0_0, 1983_01_22_05_33_58_0_1, 1983_01_28_22_26_54_0_2,
  1983_02_04_19_18_52_0_3, 1983_02_13_00_33_24_0_0, 1983_02_20_17_32_16_0_1, 1983_02_27_08_58_39_0_2,
  1983_03_06_13_17_45_0_3, 1983_03_14_17_45_40_0_0, 1983_03_22_02_26_02_0_1, 1983_03_28_20_27_16_1_2,
  1983_04_05_09_39_54_1_3, 1983_04_13_09_00_26_1_0, 1983_04_20_09_58_49_1_1, 1983_04_27_07_31_17_1_2,
  1983_05_05_04_44_20_1_3, 1983_05_12_20_26_40_1_0, 1983_05_19_15_18_16_1_1, 1983_05_26_19_48_28_1_2,
  1983_06_03_22_09_09_1_3, 1983_06_11_05_38_45_1_0, 1983_06_17_20_47_10_1_1, 1983_06_25_09_32_57_1_2,
  1983_07_03_13_14_10_1_3, 1983_07_10_13_19_30_1_0, 1983_07_17_03_51_37_1_1, 1983_07_25_00_28_34_1_2,
  1983_08_02_01_54_43_1_3, 1983_08_08_20_18_58_1_0, 1983_08_15_13_47_48_1_1, 1983_08_23_16_01_26_1_2,
  1983_08_31_12_24_33_1_3, 1983_09_07_03_36_08_1_0, 1983_09_14_03_24_08_1_1, 1983_09_22_07_38_35_1_2,
  1983_09_29_21_07_13_1_3, 1983_10_06_12_16_39_1_0, 1983_10_13_20_42_13_1_1, 1983_10_21_22_55_43_1_2,
  1983_10_29_03_38_39_0_3, 1983_11_04_22_22_06_0_0, 1983_11_12_15_49_19_0_1, 1983_11_20_12_31_28_0_2,
  1983_11_27_10_51_59_0_3, 1983_12_04_12_27_13_0_0, 1983_12_12_13_10_01_0_1, 1983_12_20_02_01_39_0_2,
  1983_12_26_18_54_14_0_3]

/-- data/astro/astro-1984.json. -/
def astro1984 : List Nat := [
  1984_01_03_05_17_03_0_0, 1984_01_11_09_49_38_0_1, 1984_01_18_14_05_50_0_2, 1984_01_25_04_49_15_0_3,
  1984_02_01_23_47_26_0_0, 1984_02_10_04_00_22_0_1, 1984_02_17_00_41_23_0_2, 1984_02_23_17_12_55_0_3,
  1984_03_02_18_31_42_0_0, 1984_03_10_18_27_40_0_1, 1984_03_17_10_09_55_0_2, 1984_03_24_07_58_44_0_3,
  1984_04_01_13_10_28_1_0, 1984_04_09_05_51_27_1_1, 1984_04_15_20_10_55_1_2, 1984_04_23_01_26_36_1_3,
  1984_05_01_04_46_23_1_0, 1984_05_08_12_49_49_1_1, 1984_05_15_05_28_45_1_2, 1984_05_22_18_46_04_1_3,
  1984_05_30_17_48_58_1_0, 1984_06_06_17_42_07_1_1, 1984_06_13_15_42_14_1_2, 1984_06_21_12_12_04_1_3,
  1984_06_29_04_19_25_1_0, 1984_07_05_22_05_02_1_1, 1984_07_13_03_20_43_1_2, 1984_07_21_05_04_31_1_3,
  1984_07_28_12_52_11_1_0, 1984_08_04_03_34_10_1_1, 1984_08_11_16_44_40_1_2, 1984_08_19_20_43_27_1_3,
  1984_08_26_20_26_42_1_0, 1984_09_02_11_31_15_1_1, 1984_09_10_08_03_03_1_2, 1984_09_18_10_33_14_1_3,
  1984_09_25_04_12_03_1_0, 1984_10_01_22_53_55_1_1, 1984_10_10_01_00_46_1_2, 1984_10_17_22_15_38_1_3,
  1984_10_24_13_09_46_1_0, 1984_10_31_13_08_27_0_1, 1984_11_08_17_45_17_0_2, 1984_11_16_07_00_41_0_3,
  1984_11_22_22_58_33_0_0, 1984_11_30_08_01_55_0_1, 1984_12_08_10_55_39_0_2, 1984_12_15_15_26_42_0_3,
  1984_12_22_11_48_37_0_0, 1984_12_30_05_29_15_0_1]

/-- data/astro/astro-1985.json. -/
def astro1985 : List Nat := [
  1985_01_07_02_18_07_0_2, 1985_01_13_23_28_14_0_3, 1985_01_21_02_30_10_0_0, 1985_01_29_03_30_27_0_1,
  1985_02_05_15_20_23_0_2, 1985_02_12_07_58_15_0_3, 1985_02_19_18_44_20_0_0, 1985_02_27_23_41_28_0_1,
  1985_03_07_02_14_21_0_2, 1985_03_13_17_35_17_0_3, 1985_03_21_12_00_05_0_0, 1985_03_29_16_11_41_0_1,
  1985_04_05_12_33_20_1_2, 1985_04_12_05_42_36_1_3, 1985_04_20_06_23_13_1_0, 1985_04_28_05_25_05_1_1,
  1985_05_04_20_53_08_1_2, 1985_05_11_18_35_02_1_3, 1985_05_19_22_42_21_1_0, 1985_05_27_13_55_23_1_1,
  1985_06_03_04_50_19_1_2, 1985_06_10_09_20_46_1_3, 1985_06_18_12_58_59_1_0, 1985_06_25_19_53_12_1_1,
  1985_07_02_13_08_19_1_2, 1985_07_10_01_51_22_1_3, 1985_07_18_00_56_53_1_0, 1985_07_25_00_39_52_1_1,
  1985_07_31_22_40_54_1_2, 1985_08_08_19_30_25_1_3, 1985_08_16_11_05_38_1_0, 1985_08_23_05_37_30_1_1,
  1985_08_30_10_27_00_1_2, 1985_09_07_13_16_47_1_3, 1985_09_14_20_20_00_1_0, 1985_09_21_12_04_54_1_1,
  1985_09_29_01_09_05_1_2, 1985_10_07_06_05_13_1_3, 1985_10_14_05_33_36_1_0, 1985_10_20_21_14_24_1_1,
  1985_10_28_17_39_18_0_2, 1985_11_05_20_08_00_0_3, 1985_11_12_14_21_04_0_0, 1985_11_19_09_04_43_0_1,
  1985_11_27_12_43_52_0_2, 1985_12_05_09_02_49_0_3, 1985_12_12_00_55_57_0_0, 1985_12_19_01_59_07_0_1,
  1985_12_27_07_32_34_0_2]

/-- data/astro/astro-1986.json. -/
def astro1986 : List Nat := [
  1986_01_03_19_48_44_0_3, 1986_01_10_12_24_02_0_0, 1986_01_17_22_14_25_0_1, 1986_01_26_00_33_35_0_2,
  1986_02_02_04_42_25_0_3, 1986_02_09_00_58_08_0_0, 1986_02_16_19_55_41_0_1, 1986_02_24_15_04_45_0_2,
  1986_03_03_12_19_09_0_3, 1986_03_10_14_54_28_0_0, 1986_03_18_16_39_21_0_1, 1986_03_26_03_04_02_0_2,
  1986_04_01_20_31_50_1_3, 1986_04_09_07_10_46_1_0, 1986_04_17_11_35_49_1_1, 1986_04_24_13_47_59_1_2,
  1986_05_01_04_23_36_1_3, 1986_05_08_23_11_45_1_0, 1986_05_17_02_00_21_1_1, 1986_05_23_21_45_29_1_2,
  1986_05_30_13_55_50_1_3, 1986_06_07_15_01_57_1_0, 1986_06_15_13_00_25_1_1, 1986_06_22_04_42_03_1_2,
  1986_06_29_01_54_08_1_3, 1986_07_07_05_55_39_1_0, 1986_07_14_21_10_52_1_1, 1986_07_21_11_40_24_1_2,
  1986_07_28_16_34_52_1_3, 1986_08_05_19_35_47_1_0, 1986_08_13_03_22_39_1_1, 1986_08_19_19_53_57_1_2,
  1986_08_27_09_39_00_1_3, 1986_09_04_08_09_55_1_0, 1986_09_11_08_42_16_1_1, 1986_09_18_06_33_15_1_2,
  1986_09_26_04_18_15_1_3, 1986_10_03_19_54_08_1_0, 1986_10_10_14_29_56_1_1, 1986_10_17_20_21_55_1_2,
  1986_10_25_23_27_31_1_3, 1986_11_02_06_01_43_0_0, 1986_11_08_21_12_04_0_1, 1986_11_16_12_12_54_0_2,
  1986_11_24_16_53_01_0_3, 1986_12_01_16_42_58_0_0, 1986_12_08_08_02_49_0_1, 1986_12_16_07_06_14_0_2,
  1986_12_24_09_19_23_0_3]

/-- data/astro/astro-1987.json. -/
def astro1987 : List Nat := [
  1987_01_06_22_35_20_0_1, 1987_01_15_02_32_12_0_2, 1987_01_22_22_47_03_0_3, 1987_01_29_13_47_00_0_0,
  1987_02_05_16_20_54_0_1, 1987_02_13_20_59_44_0_2, 1987_02_21_08_57_04_0_3, 1987_02_28_00_53_33_0_0,
  1987_03_07_11_58_11_0_1, 1987_03_15_13_14_45_0_2, 1987_03_22_16_22_34_0_3, 1987_03_29_13_48_15_1_0,
  1987_04_06_08_48_19_1_1, 1987_04_14_03_33_03_1_2, 1987_04_20_23_15_49_1_3, 1987_04_28_02_36_33_1_0,
  1987_05_06_03_26_35_1_1, 1987_05_13_13_51_43_1_2, 1987_05_20_05_02_51_1_3, 1987_05_27_16_14_54_1_0,
  1987_06_04_19_53_30_1_1, 1987_06_11_21_49_43_1_2, 1987_06_18_12_02_56_1_3, 1987_06_26_06_37_41_1_0,
  1987_07_04_09_34_55_1_1, 1987_07_11_04_33_28_1_2, 1987_07_17_21_17_27_1_3, 1987_07_25_21_37_44_1_0,
  1987_08_02_20_24_41_1_1, 1987_08_09_11_18_03_1_2, 1987_08_16_09_25_51_1_3, 1987_08_24_12_58_26_1_0,
  1987_09_01_04_48_17_1_1, 1987_09_07_19_13_09_1_2, 1987_09_15_00_45_33_1_3, 1987_09_23_04_07_47_1_0,
  1987_09_30_11_39_42_1_1, 1987_10_07_05_12_17_1_2, 1987_10_14_19_07_27_1_3, 1987_10_22_18_27_20_1_0,
  1987_10_29_17_11_07_0_1, 1987_11_05_16_46_01_0_2, 1987_11_13_14_40_48_0_3, 1987_11_21_06_32_34_0_0,
  1987_11_28_00_38_12_0_1, 1987_12_05_08_01_31_0_2, 1987_12_13_11_43_36_0_3, 1987_12_20_18_25_35_0_0,
  1987_12_27_10_02_00_0_1]

/-- data/astro/astro-1988.json. -/
def astro1988 : List Nat := [
  1988_01_04_01_41_15_0_2, 1988_01_12_07_05_39_0_3, 1988_01_19_05_26_51_0_0, 1988_01_25_21_54_29_0_1,
  1988_02_02_20_52_23_0_2, 1988_02_10_23_02_15_0_3, 1988_02_17_15_56_15_0_0, 1988_02_24_12_15_52_0_1,
  1988_03_03_16_02_04_0_2, 1988_03_11_10_56_58_0_3, 1988_03_18_02_04_35_0_0, 1988_03_25_04_42_34_0_1,
  1988_04_02_10_23_07_1_2, 1988_04_09_20_21_06_1_3, 1988_04_16_13_02_12_1_0, 1988_04_23_23_33_15_1_1,
  1988_05_02_00_43_12_1_2, 1988_05_09_02_23_11_1_3, 1988_05_15_23_12_36_1_0, 1988_05_23_17_49_50_1_1,
  1988_05_31_11_55_35_1_2, 1988_06_07_07_22_28_1_3, 1988_06_14_10_15_26_1_0, 1988_06_22_11_23_44_1_1,
  1988_06_29_20_47_42_1_2, 1988_07_06_12_37_53_1_3, 1988_07_13_22_54_09_1_0, 1988_07_22_03_14_53_1_1,
  1988_07_29_04_27_16_1_2, 1988_08_04_19_24_38_1_3, 1988_08_12_13_31_48_1_0, 1988_08_20_16_52_10_1_1,
  1988_08_27_11_57_25_1_2, 1988_09_03_04_52_25_1_3, 1988_09_11_05_49_42_1_0, 1988_09_19_04_18_47_1_1,
  1988_09_25_20_07_52_1_2, 1988_10_02_17_59_56_1_3, 1988_10_10_22_48_52_1_0, 1988_10_18_14_01_21_1_1,
  1988_10_25_04_35_51_0_2, 1988_11_01_10_12_48_0_3, 1988_11_09_14_19_40_0_0, 1988_11_16_21_35_46_0_1,
  1988_11_23_15_53_06_0_2, 1988_12_01_06_50_26_0_3, 1988_12_09_05_35_51_0_0, 1988_12_16_05_41_02_0_1,
  1988_12_23_05_28_53_0_2]

/-- data/astro/astro-1989.json. -/
def astro1989 : List Nat := [
  1989_01_07_19_22_23_0_0, 1989_01_14_13_59_27_0_1, 1989_01_21_21_33_50_0_2, 1989_01_30_02_03_18_0_3,
  1989_02_06_07_37_46_0_0, 1989_02_12_23_16_04_0_1, 1989_02_20_15_32_21_0_2, 1989_02_28_20_09_40_0_3,
  1989_03_07_18_20_07_0_0, 1989_03_14_10_12_19_0_1, 1989_03_22_09_58_50_0_2, 1989_03_30_11_22_50_1_3,
  1989_04_06_04_34_33_1_0, 1989_04_13_00_14_13_1_1, 1989_04_21_04_15_03_1_2, 1989_04_28_21_47_08_1_3,
  1989_05_05_12_48_27_1_0, 1989_05_12_15_20_22_1_1, 1989_05_20_19_18_28_1_2, 1989_05_28_05_02_14_1_3,
  1989_06_03_20_54_54_1_0, 1989_06_11_07_59_02_1_1, 1989_06_19_07_59_29_1_2, 1989_06_26_10_10_47_1_3,
  1989_07_03_06_00_51_1_0, 1989_07_11_01_19_08_1_1, 1989_07_18_18_43_51_1_2, 1989_07_25_14_33_32_1_3,
  1989_08_01_17_06_55_1_0, 1989_08_09_18_29_21_1_1, 1989_08_17_04_08_45_1_2, 1989_08_23_19_42_35_1_3,
  1989_08_31_06_45_36_1_0, 1989_09_08_10_50_32_1_1, 1989_09_15_12_52_13_1_2, 1989_09_22_03_11_49_1_3,
  1989_09_29_22_47_51_1_0, 1989_10_08_01_53_25_1_1, 1989_10_14_21_33_07_1_2, 1989_10_21_14_20_14_1_3,
  1989_10_29_15_27_54_0_0, 1989_11_06_14_11_43_0_1, 1989_11_13_05_52_28_0_2, 1989_11_20_04_44_32_0_3,
  1989_11_28_09_41_20_0_0, 1989_12_06_01_26_18_0_1, 1989_12_12_16_30_49_0_2, 1989_12_19_23_55_00_0_3,
  1989_12_28_03_20_11_0_0]

/-- data/astro/astro-1990.json. -/
def astro1990 : List Nat := [
  1990_01_04_10_41_01_0_1, 1990_01_11_04_57_39_0_2, 1990_01_18_21_18_17_0_3, 1990_01_26_19_20_56_0_0,
  1990_02_02_18_33_27_0_1, 1990_02_09_19_16_24_0_2, 1990_02_17_18_49_57_0_3, 1990_02_25_08_55_51_0_0,
  1990_03_04_02_06_20_0_1, 1990_03_11_10_59_05_0_2, 1990_03_19_14_33_18_0_3, 1990_03_26_20_50_01_1_0,
  1990_04_02_11_25_10_1_1, 1990_04_10_04_19_09_1_2, 1990_04_18_08_04_55_1_3, 1990_04_25_05_28_59_1_0,
  1990_05_01_21_18_19_1_1, 1990_05_09_20_31_27_1_2, 1990_05_17_20_46_34_1_3, 1990_05_24_12_48_27_1_0,
  1990_05_31_09_10_23_1_1, 1990_06_08_12_01_46_1_2, 1990_06_16_05_48_44_1_3, 1990_06_22_19_55_40_1_0,
  1990_06_29_23_06_47_1_1, 1990_07_08_02_24_13_1_2, 1990_07_15_12_04_29_1_3, 1990_07_22_03_54_55_1_0,
  1990_07_29_15_01_02_1_1, 1990_08_06_15_20_19_1_2, 1990_08_13_16_55_03_1_3, 1990_08_20_13_39_08_1_0,
  1990_08_28_08_34_25_1_1, 1990_09_05_02_46_35_1_2, 1990_09_11_21_54_04_1_3, 1990_09_19_01_46_09_1_0,
  1990_09_27_03_06_10_1_1, 1990_10_04_13_02_54_1_2, 1990_10_11_04_32_40_1_3, 1990_10_18_16_36_35_1_0,
  1990_10_26_21_26_42_1_1, 1990_11_02_21_49_36_0_2, 1990_11_09_13_03_23_0_3, 1990_11_17_09_05_08_0_0,
  1990_11_25_13_11_46_0_1, 1990_12_02_07_51_11_0_2, 1990_12_09_02_05_21_0_3, 1990_12_17_04_22_39_0_0,
  1990_12_25_03_16_09_0_1]

/-- data/astro/astro-1991.json. -/
def astro1991 : List Nat := [
  1991_01_07_18_36_52_0_3, 1991_01_15_23_50_40_0_0, 1991_01_23_14_21_48_0_1, 1991_01_30_06_10_32_0_2,
  1991_02_06_13_54_26_0_3, 1991_02_14_17_33_24_0_0, 1991_02_21_22_58_34_0_1, 1991_02_28_18_25_06_0_2,
  1991_03_08_10_34_49_0_3, 1991_03_16_08_12_49_0_0, 1991_03_23_06_03_28_0_1, 1991_03_30_07_17_49_0_2,
  1991_04_07_07_47_55_1_3, 1991_04_14_20_39_32_1_0, 1991_04_21_13_39_34_1_1, 1991_04_28_21_58_54_1_2,
  1991_05_07_01_48_11_1_3, 1991_05_14_05_37_13_1_0, 1991_05_20_20_46_38_1_1, 1991_05_28_12_37_05_1_2,
  1991_06_05_16_31_28_1_3, 1991_06_12_13_07_06_1_0, 1991_06_19_05_20_02_1_1, 1991_06_27_03_59_08_1_2,
  1991_07_05_03_51_16_1_3, 1991_07_11_20_06_53_1_0, 1991_07_18_16_11_07_1_1, 1991_07_26_19_25_19_1_2,
  1991_08_03_12_26_18_1_3, 1991_08_10_03_28_09_1_0, 1991_08_17_06_00_52_1_1, 1991_08_25_10_08_24_1_2,
  1991_09_01_19_17_14_1_3, 1991_09_08_12_00_59_1_0, 1991_09_15_23_01_10_1_1, 1991_09_23_23_41_22_1_2,
  1991_10_01_01_30_39_1_3, 1991_10_07_22_38_26_1_0, 1991_10_15_18_32_14_1_1, 1991_10_23_12_09_36_1_2,
  1991_10_30_07_12_07_0_3, 1991_11_06_11_10_44_0_0, 1991_11_14_14_00_52_0_1, 1991_11_21_22_57_45_0_2,
  1991_11_28_15_23_02_0_3, 1991_12_06_03_56_58_0_0, 1991_12_14_09_31_59_0_1, 1991_12_21_10_24_18_0_2,
  1991_12_28_01_56_49_0_3]

/-- data/astro/astro-1992.json. -/
def astro1992 : List Nat := [
  1992_01_04_23_10_32_0_0, 1992_01_13_02_32_21_0_1, 1992_01_19_21_28_56_0_2, 1992_01_26_15_28_44_0_3,
  1992_02_03_19_00_31_0_0, 1992_02_11_16_14_41_0_1, 1992_02_18_08_04_12_0_2, 1992_02_25_07_57_22_0_3,
  1992_03_04_13_23_39_0_0, 1992_03_12_02_35_47_0_1, 1992_03_18_18_17_52_0_2, 1992_03_26_02_31_13_0_3,
  1992_04_03_06_03_15_1_0, 1992_04_10_11_06_24_1_1, 1992_04_17_05_42_36_1_2, 1992_04_24_22_40_46_1_3,
  1992_05_02_18_45_53_1_0, 1992_05_09_16_44_28_1_1, 1992_05_16_17_02_55_1_2, 1992_05_24_16_54_41_1_3,
  1992_06_01_04_57_46_1_0, 1992_06_07_21_48_05_1_1, 1992_06_15_05_50_35_1_2, 1992_06_23_09_13_05_1_3,
  1992_06_30_13_19_04_1_0, 1992_07_07_03_44_50_1_1, 1992_07_14_20_07_41_1_2, 1992_07_22_23_14_42_1_3,
  1992_07_29_20_36_05_1_0, 1992_08_05_11_59_31_1_1, 1992_08_13_11_28_56_1_2, 1992_08_21_11_03_24_1_3,
  1992_08_28_03_42_43_1_0, 1992_09_03_23_38_53_1_1, 1992_09_12_03_18_29_1_2, 1992_09_19_20_54_33_1_3,
  1992_09_26_11_40_44_1_0, 1992_10_03_15_11_15_1_1, 1992_10_11_19_04_47_1_2, 1992_10_19_05_13_18_1_3,
  1992_10_25_20_34_04_0_0, 1992_11_02_09_10_15_0_1, 1992_11_10_09_21_43_0_2, 1992_11_17_11_40_20_0_3,
  1992_11_24_09_11_55_0_0, 1992_12_02_06_16_50_0_1, 1992_12_09_23_41_57_0_2, 1992_12_16_19_14_30_0_3,
  1992_12_24_00_44_00_0_0]

/-- data/astro/astro-1993.json. -/
def astro1993 : List Nat := [
  1993_01_01_03_39_24_0_1, 1993_01_08_12_38_10_0_2, 1993_01_15_04_02_54_0_3, 1993_01_22_18_28_10_0_0,
  1993_01_30_23_21_10_0_1, 1993_02_06_23_56_10_0_2, 1993_02_13_14_58_18_0_3, 1993_02_21_13_06_23_0_0,
  1993_03_01_15_47_28_0_1, 1993_03_08_09_46_36_0_2, 1993_03_15_04_17_39_0_3, 1993_03_23_07_15_48_0_0,
  1993_03_31_05_10_18_1_1, 1993_04_06_19_43_52_1_2, 1993_04_13_20_39_18_1_3, 1993_04_22_00_50_22_1_0,
  1993_04_29_13_40_58_1_1, 1993_05_06_04_34_07_1_2, 1993_05_13_13_20_34_1_3, 1993_05_21_15_07_46_1_0,
  1993_05_28_19_21_52_1_1, 1993_06_04_14_02_27_1_2, 1993_06_12_06_37_33_1_3, 1993_06_20_02_53_22_1_0,
  1993_06_26_23_44_01_1_1, 1993_07_04_00_45_31_1_2, 1993_07_11_23_51_12_1_3, 1993_07_19_12_24_35_1_0,
  1993_07_26_04_25_50_1_1, 1993_08_02_13_10_12_1_2, 1993_08_10_16_21_50_1_3, 1993_08_17_20_28_38_1_0,
  1993_08_24_10_58_08_1_1, 1993_09_01_03_33_33_1_2, 1993_09_09_07_27_53_1_3, 1993_09_16_04_10_32_1_0,
  1993_09_22_20_32_27_1_1, 1993_09_30_19_54_43_1_2, 1993_10_08_20_35_59_1_3, 1993_10_15_12_36_07_1_0,
  1993_10_22_09_51_36_1_1, 1993_10_30_12_38_44_0_2, 1993_11_07_06_36_07_0_3, 1993_11_13_21_34_42_0_0,
  1993_11_21_02_02_40_0_1, 1993_11_29_06_31_45_0_2, 1993_12_06_15_49_11_0_3, 1993_12_13_09_27_42_0_0,
  1993_12_20_22_26_30_0_1, 1993_12_28_23_06_33_0_2]

/-- data/astro/astro-1994.json. -/
def astro1994 : List Nat := [
  1994_01_05_00_01_17_0_3, 1994_01_11_23_11_42_0_0, 1994_01_19_20_27_50_0_1, 1994_01_27_13_24_26_0_2,
  1994_02_03_08_07_24_0_3, 1994_02_10_14_31_40_0_0, 1994_02_18_17_48_31_0_1, 1994_02_26_01_16_45_0_2,
  1994_03_04_16_54_52_0_3, 1994_03_12_07_06_33_0_0, 1994_03_20_12_15_31_0_1, 1994_03_27_12_11_07_1_2,
  1994_04_03_03_56_19_1_3, 1994_04_11_01_18_53_1_0, 1994_04_19_03_35_00_1_1, 1994_04_25_20_46_00_1_2,
  1994_05_02_15_33_47_1_3, 1994_05_10_18_08_03_1_0, 1994_05_18_13_49_57_1_1, 1994_05_25_04_39_33_1_2,
  1994_06_01_05_03_50_1_3, 1994_06_09_09_27_36_1_0, 1994_06_16_20_56_34_1_1, 1994_06_23_12_32_56_1_2,
  1994_06_30_20_32_33_1_3, 1994_07_08_22_38_00_1_0, 1994_07_16_02_12_13_1_1, 1994_07_22_21_15_46_1_2,
  1994_07_30_13_41_42_1_3, 1994_08_07_09_45_21_1_0, 1994_08_14_06_58_29_1_1, 1994_08_21_07_46_31_1_2,
  1994_08_29_07_41_48_1_3, 1994_09_05_19_32_45_1_0, 1994_09_12_12_35_38_1_1, 1994_09_19_21_00_21_1_2,
  1994_09_28_01_24_11_1_3, 1994_10_05_04_55_10_1_0, 1994_10_11_20_19_00_1_1, 1994_10_19_13_18_39_1_2,
  1994_10_27_16_45_20_0_3, 1994_11_03_13_35_39_0_0, 1994_11_10_06_14_50_0_1, 1994_11_18_06_58_27_0_2,
  1994_11_26_07_04_45_0_3, 1994_12_02_23_54_34_0_0, 1994_12_09_21_06_43_0_1, 1994_12_18_02_18_23_0_2,
  1994_12_25_19_07_18_0_3]

/-- data/astro/astro-1995.json. -/
def astro1995 : List Nat := [
  1995_01_01_10_56_50_0_0, 1995_01_08_15_46_49_0_1, 1995_01_16_20_27_55_0_2, 1995_01_24_04_58_48_0_3,
  1995_01_30_22_49_34_0_0, 1995_02_07_12_53_56_0_1, 1995_02_15_12_17_13_0_2, 1995_02_22_13_04_47_0_3,
  1995_03_01_11_49_57_0_0, 1995_03_09_10_13_21_0_1, 1995_03_17_01_27_27_0_2, 1995_03_23_20_11_08_0_3,
  1995_03_31_03_10_47_1_0, 1995_04_08_06_35_13_1_1, 1995_04_15_13_09_44_1_2, 1995_04_22_04_19_27_1_3,
  1995_04_29_18_38_10_1_0, 1995_05_07_22_44_19_1_1, 1995_05_14_21_48_55_1_2, 1995_05_21_12_36_39_1_3,
  1995_05_29_10_28_29_1_0, 1995_06_06_11_26_01_1_1, 1995_06_13_05_03_38_1_2, 1995_06_19_23_01_31_1_3,
  1995_06_28_01_50_48_1_0, 1995_07_05_21_03_05_1_1, 1995_07_12_11_49_25_1_2, 1995_07_19_12_10_11_1_3,
  1995_07_27_16_13_15_1_0, 1995_08_04_04_17_07_1_1, 1995_08_10_19_15_37_1_2, 1995_08_18_04_04_26_1_3,
  1995_08_26_05_30_56_1_0, 1995_09_02_10_04_39_1_1, 1995_09_09_04_36_27_1_2, 1995_09_16_22_10_15_1_3,
  1995_09_24_17_54_34_1_0, 1995_10_01_15_37_25_1_1, 1995_10_08_16_52_00_1_2, 1995_10_16_17_27_44_1_3,
  1995_10_24_04_36_01_0_0, 1995_10_30_21_18_29_0_1, 1995_11_07_07_21_31_0_2, 1995_11_15_11_42_31_0_3,
  1995_11_22_15_42_49_0_0, 1995_11_29_06_29_44_0_1, 1995_12_07_01_28_16_0_2, 1995_12_15_05_33_34_0_3,
  1995_12_22_02_23_03_0_0, 1995_12_28_19_07_10_0_1]

/-- data/astro/astro-1996.json. -/
def astro1996 : List Nat := [
  1996_01_05_20_52_03_0_2, 1996_01_13_20_46_34_0_3, 1996_01_20_12_51_57_0_0, 1996_01_27_11_13_26_0_1,
  1996_02_04_15_58_41_0_2, 1996_02_12_08_38_00_0_3, 1996_02_18_23_32_21_0_0, 1996_02_26_05_51_44_0_1,
  1996_03_05_09_24_10_0_2, 1996_03_12_17_15_37_0_3, 1996_03_19_10_47_16_0_0, 1996_03_27_01_30_58_0_1,
  1996_04_04_01_09_03_1_2, 1996_04_11_00_36_29_1_3, 1996_04_17_23_51_18_1_0, 1996_04_25_21_41_30_1_1,
  1996_05_03_12_50_28_1_2, 1996_05_10_06_04_37_1_3, 1996_05_17_12_48_34_1_0, 1996_05_25_15_14_43_1_1,
  1996_06_01_21_48_48_1_2, 1996_06_08_12_06_37_1_3, 1996_06_16_02_37_48_1_0, 1996_06_24_06_25_03_1_1,
  1996_07_01_04_59_53_1_2, 1996_07_07_19_56_06_1_3, 1996_07_15_17_16_12_1_0, 1996_07_23_18_50_29_1_1,
  1996_07_30_11_36_48_1_2, 1996_08_06_06_26_11_1_3, 1996_08_14_08_34_30_1_0, 1996_08_22_04_37_39_1_1,
  1996_08_28_18_53_14_1_2, 1996_09_04_20_07_19_1_3, 1996_09_13_00_07_26_1_0, 1996_09_20_12_23_39_1_1,
  1996_09_27_03_51_09_1_2, 1996_10_04_13_05_42_1_3, 1996_10_12_15_14_10_1_0, 1996_10_19_19_09_55_1_1,
  1996_10_26_15_11_18_1_2, 1996_11_03_07_52_33_0_3, 1996_11_11_04_15_44_0_0, 1996_11_18_01_09_50_0_1,
  1996_11_25_04_10_04_0_2, 1996_12_03_05_08_03_0_3, 1996_12_10_16_56_07_0_0, 1996_12_17_09_31_55_0_1,
  1996_12_24_20_41_16_0_2]

/-- data/astro/astro-1997.json. -/
def astro1997 : List Nat := [
  1997_01_02_01_46_47_0_3, 1997_01_09_04_26_09_0_0, 1997_01_15_20_02_37_0_1, 1997_01_23_15_11_01_0_2,
  1997_01_31_19_41_28_0_3, 1997_02_07_15_07_28_0_0, 1997_02_14_08_57_43_0_1, 1997_02_22_10_26_57_0_2,
  1997_03_02_09_38_15_0_3, 1997_03_09_01_16_21_0_0, 1997_03_16_00_06_40_0_1, 1997_03_24_04_46_17_0_2,
  1997_03_31_20_38_27_1_3, 1997_04_07_12_03_57_1_0, 1997_04_14_18_01_04_1_1, 1997_04_22_21_35_49_1_2,
  1997_04_30_03_37_29_1_3, 1997_05_06_21_48_52_1_0, 1997_05_14_11_56_38_1_1, 1997_05_22_10_16_13_1_2,
  1997_05_29_08_52_29_1_3, 1997_06_05_08_06_00_1_0, 1997_06_13_05_53_04_1_1, 1997_06_20_20_11_35_1_2,
  1997_06_27_13_44_09_1_3, 1997_07_04_19_41_54_1_0, 1997_07_12_22_45_05_1_1, 1997_07_20_04_23_13_1_2,
  1997_07_26_19_30_55_1_3, 1997_08_03_09_15_38_1_0, 1997_08_11_13_43_52_1_1, 1997_08_18_11_58_06_1_2,
  1997_08_25_03_26_29_1_3, 1997_09_02_00_52_59_1_0, 1997_09_10_02_32_25_1_1, 1997_09_16_19_52_13_1_2,
  1997_09_23_14_37_26_1_3, 1997_10_01_17_52_33_1_0, 1997_10_09_13_23_08_1_1, 1997_10_16_04_46_42_1_2,
  1997_10_23_05_50_12_1_3, 1997_10_31_10_01_49_0_0, 1997_11_07_21_44_28_0_1, 1997_11_14_14_12_26_0_2,
  1997_11_22_00_00_03_0_3, 1997_11_30_02_14_46_0_0, 1997_12_07_06_10_36_0_1, 1997_12_14_02_37_52_0_2,
  1997_12_21_21_44_45_0_3, 1997_12_29_16_57_30_0_0]

/-- data/astro/astro-1998.json. -/
def astro1998 : List Nat := [
  1998_01_05_14_19_43_0_1, 1998_01_12_17_24_41_0_2, 1998_01_20_19_41_47_0_3, 1998_01_28_06_02_09_0_0,
  1998_02_03_22_55_13_0_1, 1998_02_11_10_23_40_0_2, 1998_02_19_15_28_57_0_3, 1998_02_26_17_27_31_0_0,
  1998_03_05_08_42_33_0_1, 1998_03_13_04_34_57_0_2, 1998_03_21_07_39_37_0_3, 1998_03_28_03_15_13_0_0,
  1998_04_03_21_19_41_1_1, 1998_04_11_23_24_30_1_2, 1998_04_19_20_53_34_1_3, 1998_04_26_12_42_51_1_0,
  1998_05_03_11_04_22_1_1, 1998_05_11_15_30_51_1_2, 1998_05_19_05_36_10_1_3, 1998_05_25_20_33_45_1_0,
  1998_06_02_02_44_53_1_1, 1998_06_10_05_19_57_1_2, 1998_06_17_11_39_26_1_3, 1998_06_24_04_51_47_1_0,
  1998_07_01_19_42_19_1_1, 1998_07_09_17_02_47_1_2, 1998_07_16_16_15_18_1_3, 1998_07_23_14_45_01_1_0,
  1998_07_31_13_05_25_1_1, 1998_08_08_03_11_47_1_2, 1998_08_14_20_50_48_1_3, 1998_08_22_03_04_09_1_0,
  1998_08_30_06_07_38_1_1, 1998_09_06_12_23_19_1_2, 1998_09_13_03_00_15_1_3, 1998_09_20_18_02_37_1_0,
  1998_09_28_22_12_25_1_1, 1998_10_05_21_13_29_1_2, 1998_10_12_12_12_51_1_3, 1998_10_20_11_10_40_1_0,
  1998_10_28_11_47_37_0_1, 1998_11_04_05_19_43_0_2, 1998_11_11_00_29_45_0_3, 1998_11_19_04_28_09_0_0,
  1998_11_27_00_23_50_0_1, 1998_12_03_15_20_51_0_2, 1998_12_10_17_55_00_0_3, 1998_12_18_22_43_54_0_0,
  1998_12_26_10_47_20_0_1]

/-- data/astro/astro-1999.json. -/
def astro1999 : List Nat := [
  1999_01_02_02_51_23_0_2, 1999_01_09_14_23_14_0_3, 1999_01_17_15_47_53_0_0, 1999_01_24_19_16_47_0_1,
  1999_01_31_16_08_15_0_2, 1999_02_08_12_00_28_0_3, 1999_02_16_06_40_52_0_0, 1999_02_23_02_44_40_0_1,
  1999_03_02_06_59_51_0_2, 1999_03_10_08_43_45_0_3, 1999_03_17_18_50_13_0_0, 1999_03_24_10_19_32_0_1,
  1999_03_31_23_49_59_1_2, 1999_04_09_03_53_41_1_3, 1999_04_16_05_23_38_1_0, 1999_04_22_20_02_38_1_1,
  1999_04_30_15_55_29_1_2, 1999_05_08_18_30_40_1_3, 1999_05_15_13_06_28_1_0, 1999_05_22_06_34_13_1_1,
  1999_05_30_07_40_42_1_2, 1999_06_07_05_21_25_1_3, 1999_06_13_20_04_15_1_0, 1999_06_20_19_12_35_1_1,
  1999_06_28_22_38_32_1_2, 1999_07_06_12_58_02_1_3, 1999_07_13_03_25_18_1_0, 1999_07_20_10_00_19_1_1,
  1999_07_28_12_26_22_1_2, 1999_08_04_18_28_00_1_3, 1999_08_11_12_09_42_1_0, 1999_08_19_02_47_56_1_1,
  1999_08_27_00_49_48_1_2, 1999_09_02_23_19_00_1_3, 1999_09_09_23_03_19_1_0, 1999_09_17_21_07_32_1_1,
  1999_09_25_11_53_09_1_2, 1999_10_02_05_04_04_1_3, 1999_10_09_12_35_19_1_0, 1999_10_17_16_01_20_1_1,
  1999_10_24_22_04_26_1_2, 1999_10_31_12_06_00_0_3, 1999_11_08_03_54_08_0_0, 1999_11_16_09_04_04_0_1,
  1999_11_23_07_05_41_0_2, 1999_11_29_23_20_42_0_3, 1999_12_07_22_33_03_0_0, 1999_12_16_00_50_56_0_1,
  1999_12_22_17_33_07_0_2, 1999_12_29_14_05_58_0_3]

/-- data/astro/astro-2000.json. -/
def astro2000 : List Nat := [
  2000_01_06_18_14_57_0_0, 2000_01_14_13_34_40_0_1, 2000_01_21_04_41_45_0_2, 2000_01_28_07_58_42_0_3,
  2000_02_05_13_04_52_0_0, 2000_02_12_23_21_48_0_1, 2000_02_19_16_27_35_0_2, 2000_02_27_03_56_31_0_3,
  2000_03_06_05_19_13_0_0, 2000_03_13_06_59_35_0_1, 2000_03_20_04_45_10_0_2, 2000_03_28_01_23_55_1_3,
  2000_04_04_19_14_33_1_0, 2000_04_11_14_31_31_1_1, 2000_04_18_18_42_18_1_2, 2000_04_26_20_32_44_1_3,
  2000_05_04_05_13_58_1_0, 2000_05_10_21_01_46_1_1, 2000_05_18_08_35_20_1_2, 2000_05_26_12_57_10_1_3,
  2000_06_02_13_15_38_1_0, 2000_06_09_04_30_32_1_1, 2000_06_16_23_28_17_1_2, 2000_06_25_02_01_52_1_3,
  2000_07_01_20_21_31_1_0, 2000_07_08_13_54_08_1_1, 2000_07_16_14_56_54_1_2, 2000_07_24_12_03_42_1_3,
  2000_07_31_03_26_33_1_0, 2000_08_07_02_02_54_1_1, 2000_08_15_06_14_47_1_2, 2000_08_22_19_52_26_1_3,
  2000_08_29_11_20_40_1_0, 2000_09_05_17_28_36_1_1, 2000_09_13_20_39_20_1_2, 2000_09_21_02_30_22_1_3,
  2000_09_27_20_54_05_1_0, 2000_10_05_12_00_12_1_1, 2000_10_13_09_55_33_1_2, 2000_10_20_09_01_30_1_3,
  2000_10_27_08_58_52_1_0, 2000_11_04_07_27_21_0_1, 2000_11_11_21_17_07_0_2, 2000_11_18_15_27_19_0_3,
  2000_11_25_23_12_44_0_0, 2000_12_04_03_56_02_0_1, 2000_12_11_09_05_02_0_2, 2000_12_18_00_44_08_0_3,
  2000_12_25_17_23_37_0_0]

/-- data/astro/astro-2001.json. -/
def astro2001 : List Nat := [
  2001_01_02_22_32_42_0_1, 2001_01_09_20_26_00_0_2, 2001_01_16_12_37_11_0_3, 2001_01_24_13_08_40_0_0,
  2001_02_01_14_03_24_0_1, 2001_02_08_07_12_46_0_2, 2001_02_15_03_26_16_0_3, 2001_02_23_08_23_21_0_0,
  2001_03_03_02_03_59_0_1, 2001_03_09_17_24_11_0_2, 2001_03_16_20_48_00_0_3, 2001_03_25_02_23_59_1_0,
  2001_04_01_11_50_29_1_1, 2001_04_08_04_23_09_1_2, 2001_04_15_16_33_29_1_3, 2001_04_23_16_28_23_1_0,
  2001_04_30_18_09_21_1_1, 2001_05_07_14_53_53_1_2, 2001_05_15_11_12_40_1_3, 2001_05_23_03_48_10_1_0,
  2001_05_29_23_11_08_1_1, 2001_06_06_02_40_47_1_2, 2001_06_14_04_30_34_1_3, 2001_06_21_12_59_23_1_0,
  2001_06_28_04_21_29_1_1, 2001_07_05_16_05_23_1_2, 2001_07_13_19_47_43_1_3, 2001_07_20_20_45_34_1_0,
  2001_07_27_11_09_41_1_1, 2001_08_04_06_57_29_1_2, 2001_08_12_08_55_33_1_3, 2001_08_19_03_56_09_1_0,
  2001_08_25_20_55_34_1_1, 2001_09_02_22_44_52_1_2, 2001_09_10_20_01_26_1_3, 2001_09_17_11_28_10_1_0,
  2001_09_24_10_30_52_1_1, 2001_10_02_14_50_47_1_2, 2001_10_10_05_21_10_1_3, 2001_10_16_20_24_06_1_0,
  2001_10_24_03_57_56_1_1, 2001_11_01_05_43_09_0_2, 2001_11_08_12_22_55_0_3, 2001_11_15_06_41_09_0_0,
  2001_11_22_23_20_45_0_1, 2001_11_30_20_51_11_0_2, 2001_12_07_19_53_44_0_3, 2001_12_14_20_49_19_0_0,
  2001_12_22_20_57_46_0_1, 2001_12_30_10_42_27_0_2]

/-- data/astro/astro-2002.json. -/
def astro2002 : List Nat := [
  2002_01_06_03_57_05_0_3, 2002_01_13_13_30_56_0_0, 2002_01_21_17_48_45_0_1, 2002_01_28_22_52_12_0_2,
  2002_02_04_13_35_35_0_3, 2002_02_12_07_43_15_0_0, 2002_02_20_12_03_48_0_1, 2002_02_27_09_18_19_0_2,
  2002_03_06_01_26_57_0_3, 2002_03_14_02_04_55_0_0, 2002_03_22_02_29_51_0_1, 2002_03_28_18_26_28_0_2,
  2002_04_04_16_30_58_1_3, 2002_04_12_20_23_28_1_0, 2002_04_20_13_49_40_1_1, 2002_04_27_04_01_17_1_2,
  2002_05_04_08_17_39_1_3, 2002_05_12_11_47_09_1_0, 2002_05_19_20_43_12_1_1, 2002_05_26_12_52_18_1_2,
  2002_06_03_01_07_08_1_3, 2002_06_11_00_48_06_1_0, 2002_06_18_01_30_25_1_1, 2002_06_24_22_43_15_1_2,
  2002_07_02_18_21_59_1_3, 2002_07_10_11_27_00_1_0, 2002_07_17_05_48_19_1_1, 2002_07_24_10_07_54_1_2,
  2002_08_01_11_24_56_1_3, 2002_08_08_20_15_45_1_0, 2002_08_15_11_13_32_1_1, 2002_08_22_23_30_06_1_2,
  2002_08_31_03_33_26_1_3, 2002_09_07_04_10_49_1_0, 2002_09_13_19_09_14_1_1, 2002_09_21_15_00_24_1_2,
  2002_09_29_18_04_15_1_3, 2002_10_06_12_18_17_1_0, 2002_10_13_06_33_50_1_1, 2002_10_21_08_21_50_1_2,
  2002_10_29_05_28_47_0_3, 2002_11_04_20_35_39_0_0, 2002_11_11_20_52_37_0_1, 2002_11_20_01_35_48_0_2,
  2002_11_27_15_47_32_0_3, 2002_12_04_07_36_12_0_0, 2002_12_11_15_49_43_0_1, 2002_12_19_19_12_19_0_2,
  2002_12_27_00_32_25_0_3]

/-- data/astro/astro-2003.json. -/
def astro2003 : List Nat := [
  2003_01_02_20_25_08_0_0, 2003_01_10_13_16_49_0_1, 2003_01_18_10_49_55_0_2, 2003_01_25_08_34_52_0_3,
  2003_02_01_10_50_48_0_0, 2003_02_09_11_12_58_0_1, 2003_02_16_23_53_18_0_2, 2003_02_23_16_47_45_0_3,
  2003_03_03_02_37_12_0_0, 2003_03_11_07_16_32_0_1, 2003_03_18_10_36_17_0_2, 2003_03_25_01_52_49_0_3,
  2003_04_01_20_20_34_1_0, 2003_04_10_00_41_03_1_1, 2003_04_16_20_36_58_1_2, 2003_04_23_13_19_47_1_3,
  2003_05_01_13_16_15_1_0, 2003_05_09_12_53_23_1_1, 2003_05_16_04_36_31_1_2, 2003_05_23_01_32_01_1_3,
  2003_05_31_05_21_02_1_0, 2003_06_07_21_27_34_1_1, 2003_06_14_12_15_59_1_2, 2003_06_21_15_46_38_1_3,
  2003_06_29_19_39_33_1_0, 2003_07_07_03_32_49_1_1, 2003_07_13_20_21_33_1_2, 2003_07_21_08_03_12_1_3,
  2003_07_29_07_53_11_1_0, 2003_08_05_08_28_44_1_1, 2003_08_12_05_48_18_1_2, 2003_08_20_01_49_51_1_3,
  2003_08_27_18_26_31_1_0, 2003_09_03_13_35_53_1_1, 2003_09_10_17_36_12_1_2, 2003_09_18_20_04_03_1_3,
  2003_09_26_04_09_27_1_0, 2003_10_02_20_11_37_1_1, 2003_10_10_08_28_19_1_2, 2003_10_18_13_32_38_1_3,
  2003_10_25_13_50_56_1_0, 2003_11_01_04_26_41_0_1, 2003_11_09_01_15_23_0_2, 2003_11_17_04_16_43_0_3,
  2003_11_23_23_00_04_0_0, 2003_11_30_17_17_34_0_1, 2003_12_08_20_38_57_0_2, 2003_12_16_17_44_01_0_3,
  2003_12_23_09_44_54_0_0, 2003_12_30_10_04_54_0_1]

/-- data/astro/astro-2004.json. -/
def astro2004 : List Nat := [
  2004_01_07_15_42_33_0_2, 2004_01_15_04_47_21_0_3, 2004_01_21_21_07_37_0_0, 2004_01_29_06_04_34_0_1,
  2004_02_06_08_49_39_0_2, 2004_02_13_13_41_25_0_3, 2004_02_20_09_20_52_0_0, 2004_02_28_03_24_45_0_1,
  2004_03_06_23_17_03_0_2, 2004_03_13_21_02_49_0_3, 2004_03_20_22_44_33_0_0, 2004_03_29_00_48_45_1_1,
  2004_04_05_12_05_18_1_2, 2004_04_12_04_48_14_1_3, 2004_04_19_14_24_09_1_0, 2004_04_27_18_33_42_1_1,
  2004_05_04_21_35_30_1_2, 2004_05_11_12_06_06_1_3, 2004_05_19_05_54_30_1_0, 2004_05_27_08_58_15_1_1,
  2004_06_03_05_20_57_1_2, 2004_06_09_21_04_11_1_3, 2004_06_17_21_28_51_1_0, 2004_06_25_20_09_20_1_1,
  2004_07_02_12_09_58_1_2, 2004_07_09_08_35_13_1_3, 2004_07_17_12_25_07_1_0, 2004_07_25_04_38_49_1_1,
  2004_07_31_19_06_05_1_2, 2004_08_07_23_02_31_1_3, 2004_08_16_02_24_24_1_0, 2004_08_23_11_13_29_1_1,
  2004_08_30_03_22_32_1_2, 2004_09_06_16_11_23_1_3, 2004_09_14_15_28_53_1_0, 2004_09_21_16_55_14_1_1,
  2004_09_28_14_09_03_1_2, 2004_10_06_11_12_48_1_3, 2004_10_14_03_47_41_1_0, 2004_10_20_23_00_16_1_1,
  2004_10_28_04_07_33_1_2, 2004_11_05_05_55_10_0_3, 2004_11_12_14_26_34_0_0, 2004_11_19_05_51_39_0_1,
  2004_11_26_20_08_03_0_2, 2004_12_05_00_54_55_0_3, 2004_12_12_01_28_59_0_0, 2004_12_18_16_40_32_0_1,
  2004_12_26_15_07_16_0_2]

/-- data/astro/astro-2005.json. -/
def astro2005 : List Nat := [
  2005_01_03_17_47_29_0_3, 2005_01_10_12_03_53_0_0, 2005_01_17_06_57_53_0_1, 2005_01_25_10_33_26_0_2,
  2005_02_02_07_28_13_0_3, 2005_02_08_22_30_19_0_0, 2005_02_16_00_15_59_0_1, 2005_02_24_04_55_22_0_2,
  2005_03_03_17_37_48_0_3, 2005_03_10_09_13_29_0_0, 2005_03_17_19_19_25_0_1, 2005_03_25_21_01_00_0_2,
  2005_04_02_01_51_49_1_3, 2005_04_08_21_35_23_1_0, 2005_04_16_15_38_53_1_1, 2005_04_24_11_09_27_1_2,
  2005_05_01_07_25_42_1_3, 2005_05_08_09_48_43_1_0, 2005_05_16_09_58_46_1_1, 2005_05_23_21_20_56_1_2,
  2005_05_30_12_49_02_1_3, 2005_06_06_22_58_03_1_0, 2005_06_15_02_24_39_1_1, 2005_06_22_05_16_17_1_2,
  2005_06_28_19_25_23_1_3, 2005_07_06_13_04_46_1_0, 2005_07_14_16_22_03_1_1, 2005_07_21_12_02_34_1_2,
  2005_07_28_04_21_01_1_3, 2005_08_05_04_06_08_1_0, 2005_08_13_03_40_15_1_1, 2005_08_19_18_54_49_1_2,
  2005_08_26_16_19_53_1_3, 2005_09_03_19_45_59_1_0, 2005_09_11_12_37_47_1_1, 2005_09_18_03_01_38_1_2,
  2005_09_25_07_42_11_1_3, 2005_10_03_11_27_44_1_0, 2005_10_10_20_01_33_1_1, 2005_10_17_13_13_47_1_2,
  2005_10_25_02_18_25_1_3, 2005_11_02_01_24_00_0_0, 2005_11_09_01_57_43_0_1, 2005_11_16_00_57_29_0_2,
  2005_11_23_22_13_27_0_3, 2005_12_01_15_00_23_0_0, 2005_12_08_09_37_07_0_1, 2005_12_15_16_15_36_0_2,
  2005_12_23_19_38_01_0_3]

/-- data/astro/astro-2006.json. -/
def astro2006 : List Nat := [
  2006_01_06_18_57_26_0_1, 2006_01_14_09_48_28_0_2, 2006_01_22_15_15_20_0_3, 2006_01_29_14_15_42_0_0,
  2006_02_05_06_29_36_0_1, 2006_02_13_04_44_48_0_2, 2006_02_21_07_18_07_0_3, 2006_02_28_00_32_46_0_0,
  2006_03_06_20_16_35_0_1, 2006_03_14_23_36_25_0_2, 2006_03_22_19_11_16_0_3, 2006_03_29_11_17_35_1_0,
  2006_04_05_13_01_51_1_1, 2006_04_13_17_42_03_1_2, 2006_04_21_04_28_44_1_3, 2006_04_27_20_46_11_1_0,
  2006_05_05_06_14_26_1_1, 2006_05_13_07_53_34_1_2, 2006_05_20_10_21_11_1_3, 2006_05_27_06_27_46_1_0,
  2006_06_04_00_06_52_1_1, 2006_06_11_19_05_24_1_2, 2006_06_18_15_09_31_1_3, 2006_06_25_17_06_58_1_0,
  2006_07_03_17_37_25_1_1, 2006_07_11_04_04_05_1_2, 2006_07_17_20_14_31_1_3, 2006_07_25_05_32_01_1_0,
  2006_08_02_09_46_25_1_1, 2006_08_09_11_56_15_1_2, 2006_08_16_02_53_22_1_3, 2006_08_23_20_10_37_1_0,
  2006_08_31_23_57_14_1_1, 2006_09_07_19_43_50_1_2, 2006_09_14_12_17_40_1_3, 2006_09_22_12_45_47_1_0,
  2006_09_30_12_04_33_1_1, 2006_10_07_04_13_50_1_2, 2006_10_14_01_27_14_1_3, 2006_10_22_06_14_33_1_0,
  2006_10_29_21_26_02_0_1, 2006_11_05_12_58_55_0_2, 2006_11_12_17_46_59_0_3, 2006_11_20_22_18_22_0_0,
  2006_11_28_06_29_44_0_1, 2006_12_05_00_25_18_0_2, 2006_12_12_14_33_03_0_3, 2006_12_20_14_01_11_0_0,
  2006_12_27_14_48_48_0_1]

/-- data/astro/astro-2007.json. -/
def astro2007 : List Nat := [
  2007_01_03_13_57_48_0_2, 2007_01_11_12_45_31_0_3, 2007_01_19_04_01_21_0_0, 2007_01_25_23_02_46_0_1,
  2007_02_02_05_45_51_0_2, 2007_02_10_09_52_29_0_3, 2007_02_17_16_15_26_0_0, 2007_02_24_07_57_16_0_1,
  2007_03_03_23_17_40_0_2, 2007_03_12_03_55_53_0_3, 2007_03_19_02_44_03_0_0, 2007_03_25_19_17_31_1_1,
  2007_04_02_18_15_45_1_2, 2007_04_10_19_05_21_1_3, 2007_04_17_12_37_32_1_0, 2007_04_24_07_36_31_1_1,
  2007_05_02_11_10_43_1_2, 2007_05_10_05_27_51_1_3, 2007_05_16_20_28_44_1_0, 2007_05_23_22_02_47_1_1,
  2007_06_01_02_05_15_1_2, 2007_06_08_12_43_49_1_3, 2007_06_15_04_14_41_1_0, 2007_06_22_14_14_55_1_1,
  2007_06_30_14_50_25_1_2, 2007_07_07_17_55_18_1_3, 2007_07_14_13_05_06_1_0, 2007_07_22_07_28_56_1_1,
  2007_07_30_01_49_47_1_2, 2007_08_05_22_21_54_1_3, 2007_08_13_00_03_35_1_0, 2007_08_21_00_54_57_1_1,
  2007_08_28_11_37_18_1_2, 2007_09_04_03_35_01_1_3, 2007_09_11_13_45_25_1_0, 2007_09_19_17_49_27_1_1,
  2007_09_26_20_47_04_1_2, 2007_10_03_11_08_15_1_3, 2007_10_11_06_02_03_1_0, 2007_10_19_09_34_34_1_1,
  2007_10_26_05_53_07_1_2, 2007_11_01_21_20_03_0_3, 2007_11_09_23_04_18_0_0, 2007_11_17_22_33_35_0_1,
  2007_11_24_14_31_07_0_2, 2007_12_01_12_45_09_0_3, 2007_12_09_17_41_11_0_0, 2007_12_17_10_17_57_0_1,
  2007_12_24_01_16_30_0_2]

/-- data/astro/astro-2008.json. -/
def astro2008 : List Nat := [
  2008_01_08_11_37_34_0_0, 2008_01_15_19_45_57_0_1, 2008_01_22_13_35_07_0_2, 2008_01_30_05_03_20_0_3,
  2008_02_07_03_45_01_0_0, 2008_02_14_03_33_50_0_1, 2008_02_21_03_30_31_0_2, 2008_02_29_02_19_51_0_3,
  2008_03_07_17_15_11_0_0, 2008_03_14_10_46_07_0_1, 2008_03_21_18_39_51_0_2, 2008_03_29_21_49_26_0_3,
  2008_04_06_04_56_26_1_0, 2008_04_12_19_32_16_1_1, 2008_04_20_11_25_33_1_2, 2008_04_28_15_14_06_1_3,
  2008_05_05_13_19_20_1_0, 2008_05_12_04_47_08_1_1, 2008_05_20_03_11_55_1_2, 2008_05_28_03_58_13_1_3,
  2008_06_03_20_23_51_1_0, 2008_06_10_16_03_29_1_1, 2008_06_18_18_31_25_1_2, 2008_06_26_13_11_16_1_3,
  2008_07_03_03_20_01_1_0, 2008_07_10_05_34_52_1_1, 2008_07_18_09_00_29_1_2, 2008_07_25_19_43_02_1_3,
  2008_08_01_11_13_51_1_0, 2008_08_08_21_20_52_1_1, 2008_08_16_22_18_17_1_2, 2008_08_24_00_51_08_1_3,
  2008_08_30_20_59_06_1_0, 2008_09_07_15_05_31_1_1, 2008_09_15_10_15_23_1_2, 2008_09_22_06_06_12_1_3,
  2008_09_29_09_13_08_1_0, 2008_10_07_10_05_54_1_1, 2008_10_14_21_04_28_1_2, 2008_10_21_12_56_53_1_3,
  2008_10_28_23_14_49_0_0, 2008_11_06_04_04_36_0_1, 2008_11_13_06_19_20_0_2, 2008_11_19_21_33_03_0_3,
  2008_11_27_16_55_53_0_0, 2008_12_05_21_26_19_0_1, 2008_12_12_16_38_59_0_2, 2008_12_19_10_30_58_0_3,
  2008_12_27_12_23_34_0_0]

/-- data/astro/astro-2009.json. -/
def astro2009 : List Nat := [
  2009_01_04_11_56_33_0_1, 2009_01_11_03_27_59_0_2, 2009_01_18_02_47_02_0_3, 2009_01_26_07_56_08_0_0,
  2009_02_02_23_12_58_0_1, 2009_02_09_14_49_37_0_2, 2009_02_16_21_39_03_0_3, 2009_02_25_01_36_32_0_0,
  2009_03_04_07_45_40_0_1, 2009_03_11_02_37_52_0_2, 2009_03_18_17_49_51_0_3, 2009_03_26_16_08_01_0_0,
  2009_04_02_15_34_02_1_1, 2009_04_09_15_55_59_1_2, 2009_04_17_14_38_40_1_3, 2009_04_25_04_24_14_1_0,
  2009_05_01_21_44_56_1_1, 2009_05_09_05_01_44_1_2, 2009_05_17_08_27_54_1_3, 2009_05_24_13_12_16_1_0,
  2009_05_31_04_23_07_1_1, 2009_06_07_19_12_22_1_2, 2009_06_15_23_16_10_1_3, 2009_06_22_20_36_11_1_0,
  2009_06_29_12_29_26_1_1, 2009_07_07_10_22_22_1_2, 2009_07_15_10_54_23_1_3, 2009_07_22_03_35_28_1_0,
  2009_07_28_23_00_29_1_1, 2009_08_06_01_56_00_1_2, 2009_08_13_19_56_08_1_3, 2009_08_20_11_02_03_1_0,
  2009_08_27_12_42_09_1_1, 2009_09_04_17_03_54_1_2, 2009_09_12_03_16_36_1_3, 2009_09_18_19_44_30_1_0,
  2009_09_26_05_49_32_1_1, 2009_10_04_07_11_36_1_2, 2009_10_11_09_56_56_1_3, 2009_10_18_06_32_57_1_0,
  2009_10_26_00_41_45_0_1, 2009_11_02_19_15_29_0_2, 2009_11_09_15_57_33_0_3, 2009_11_16_19_14_00_0_0,
  2009_11_24_21_38_55_0_1, 2009_12_02_07_32_13_0_2, 2009_12_09_00_15_38_0_3, 2009_12_16_12_03_28_0_0,
  2009_12_24_17_36_34_0_1]

/-- data/astro/astro-2010.json. -/
def astro2010 : List Nat := [
  2010_01_07_10_41_51_0_3, 2010_01_15_07_13_04_0_0, 2010_01_23_10_54_23_0_1, 2010_01_30_06_18_38_0_2,
  2010_02_05_23_50_47_0_3, 2010_02_14_02_53_00_0_0, 2010_02_22_00_42_53_0_1, 2010_02_28_16_38_32_0_2,
  2010_03_07_15_44_08_0_3, 2010_03_15_21_03_17_0_0, 2010_03_23_11_00_23_0_1, 2010_03_30_03_25_56_1_2,
  2010_04_06_10_38_35_1_3, 2010_04_14_13_31_03_1_0, 2010_04_21_19_20_27_1_1, 2010_04_28_13_18_50_1_2,
  2010_05_06_05_15_58_1_3, 2010_05_14_02_05_48_1_0, 2010_05_21_00_43_42_1_1, 2010_05_28_00_07_40_1_2,
  2010_06_04_23_14_14_1_3, 2010_06_12_12_15_30_1_0, 2010_06_19_05_30_46_1_1, 2010_06_26_12_31_00_1_2,
  2010_07_04_15_36_57_1_3, 2010_07_11_20_41_06_1_0, 2010_07_18_11_11_48_1_1, 2010_07_26_02_37_35_1_2,
  2010_08_03_06_00_38_1_3, 2010_08_10_04_08_34_1_0, 2010_08_16_19_14_44_1_1, 2010_08_24_18_05_53_1_2,
  2010_09_01_18_23_30_1_3, 2010_09_08_11_30_12_1_0, 2010_09_15_06_49_37_1_1, 2010_09_23_10_18_41_1_2,
  2010_10_01_04_53_21_1_3, 2010_10_07_19_44_52_1_0, 2010_10_14_22_26_37_1_1, 2010_10_23_02_38_11_1_2,
  2010_10_30_13_46_59_1_3, 2010_11_06_04_52_23_0_0, 2010_11_13_16_37_47_0_1, 2010_11_21_17_29_10_0_2,
  2010_11_28_20_37_54_0_3, 2010_12_05_17_37_00_0_0, 2010_12_13_13_59_03_0_1, 2010_12_21_08_15_13_0_2,
  2010_12_28_04_20_20_0_3]

/-- data/astro/astro-2011.json. -/
def astro2011 : List Nat := [
  2011_01_04_09_04_33_0_0, 2011_01_12_11_33_06_0_1, 2011_01_19_21_22_56_0_2, 2011_01_26_12_59_19_0_3,
  2011_02_03_02_32_38_0_0, 2011_02_11_07_20_05_0_1, 2011_02_18_08_36_52_0_2, 2011_02_24_23_28_12_0_3,
  2011_03_04_20_47_33_0_0, 2011_03_12_23_46_01_0_1, 2011_03_19_18_10_48_0_2, 2011_03_26_12_08_25_0_3,
  2011_04_03_15_33_33_1_0, 2011_04_11_13_05_43_1_1, 2011_04_18_03_44_12_1_2, 2011_04_25_03_47_05_1_3,
  2011_05_03_07_51_23_1_0, 2011_05_10_21_32_48_1_1, 2011_05_17_12_08_20_1_2, 2011_05_24_19_52_16_1_3,
  2011_06_01_22_02_52_1_0, 2011_06_09_03_10_27_1_1, 2011_06_15_21_13_06_1_2, 2011_06_23_12_49_15_1_3,
  2011_07_01_09_53_55_1_0, 2011_07_08_07_29_37_1_1, 2011_07_15_07_39_27_1_2, 2011_07_23_06_04_00_1_3,
  2011_07_30_19_39_46_1_0, 2011_08_06_12_08_57_1_1, 2011_08_13_19_57_49_1_2, 2011_08_21_22_56_45_1_3,
  2011_08_29_04_04_17_1_0, 2011_09_04_18_40_19_1_1, 2011_09_12_10_27_28_1_2, 2011_09_20_14_40_20_1_3,
  2011_09_27_12_09_14_1_0, 2011_10_04_04_16_05_1_1, 2011_10_12_03_07_18_1_2, 2011_10_20_04_31_41_1_3,
  2011_10_26_20_56_46_1_0, 2011_11_02_16_38_39_0_1, 2011_11_10_20_18_09_0_2, 2011_11_18_15_10_11_0_3,
  2011_11_25_06_11_08_0_0, 2011_12_02_09_52_47_0_1, 2011_12_10_14_38_21_0_2, 2011_12_18_00_48_50_0_3,
  2011_12_24_18_08_21_0_0]

/-- data/astro/astro-2012.json. -/
def astro2012 : List Nat := [
  2012_01_01_06_16_07_0_1, 2012_01_09_07_32_14_0_2, 2012_01_16_09_09_22_0_3, 2012_01_23_07_41_40_0_0,
  2012_01_31_04_11_43_0_1, 2012_02_07_21_56_10_0_2, 2012_02_14_17_05_41_0_3, 2012_02_21_22_37_09_0_0,
  2012_03_01_01_23_15_0_1, 2012_03_08_09_41_42_0_2, 2012_03_15_01_27_01_0_3, 2012_03_22_14_39_28_0_0,
  2012_03_30_20_42_04_1_1, 2012_04_06_20_20_26_1_2, 2012_04_13_11_51_14_1_3, 2012_04_21_08_20_17_1_0,
  2012_04_29_10_58_16_1_1, 2012_05_06_04_36_07_1_2, 2012_05_12_22_48_03_1_3, 2012_05_21_00_48_21_1_0,
  2012_05_28_21_16_04_1_1, 2012_06_04_12_11_44_1_2, 2012_06_11_11_42_42_1_3, 2012_06_19_16_03_00_1_0,
  2012_06_27_04_30_31_1_1, 2012_07_03_19_51_46_1_2, 2012_07_11_02_49_33_1_3, 2012_07_19_05_24_32_1_0,
  2012_07_26_09_56_52_1_1, 2012_08_02_04_27_24_1_2, 2012_08_09_19_56_40_1_3, 2012_08_17_16_54_31_1_0,
  2012_08_24_14_54_46_1_1, 2012_08_31_14_57_45_1_2, 2012_09_08_14_16_10_1_3, 2012_09_16_03_10_34_1_0,
  2012_09_22_20_42_34_1_1, 2012_09_30_04_18_32_1_2, 2012_10_08_08_34_11_1_3, 2012_10_15_13_02_36_1_0,
  2012_10_22_04_33_48_1_1, 2012_10_29_19_50_30_0_2, 2012_11_07_00_36_55_0_3, 2012_11_13_22_08_20_0_0,
  2012_11_20_14_32_36_0_1, 2012_11_28_14_47_28_0_2, 2012_12_06_15_32_49_0_3, 2012_12_13_08_42_24_0_0,
  2012_12_20_05_19_53_0_1, 2012_12_28_10_22_40_0_2]

/-- data/astro/astro-2013.json. -/
def astro2013 : List Nat := [
  2013_01_05_03_58_56_0_3, 2013_01_11_19_45_17_0_0, 2013_01_18_23_45_56_0_1, 2013_01_27_04_40_28_0_2,
  2013_02_03_13_57_36_0_3, 2013_02_10_07_22_46_0_0, 2013_02_17_20_31_19_0_1, 2013_02_25_20_28_51_0_2,
  2013_03_04_21_54_39_0_3, 2013_03_11_19_54_19_0_0, 2013_03_19_17_27_32_0_1, 2013_03_27_09_30_20_0_2,
  2013_04_03_05_38_53_1_3, 2013_04_10_10_38_49_1_0, 2013_04_18_13_32_33_1_1, 2013_04_25_20_59_57_1_2,
  2013_05_02_12_16_36_1_3, 2013_05_10_01_31_40_1_0, 2013_05_18_05_36_25_1_1, 2013_05_25_05_27_03_1_2,
  2013_05_31_20_00_19_1_3, 2013_06_08_16_59_01_1_0, 2013_06_16_18_25_25_1_1, 2013_06_23_12_33_38_1_2,
  2013_06_30_05_55_21_1_3, 2013_07_08_08_16_06_1_0, 2013_07_16_04_19_57_1_1, 2013_07_22_19_16_32_1_2,
  2013_07_29_18_44_43_1_3, 2013_08_06_22_51_32_1_0, 2013_08_14_11_57_33_1_1, 2013_08_21_02_45_06_1_2,
  2013_08_28_10_35_47_1_3, 2013_09_05_12_36_12_1_0, 2013_09_12_18_09_52_1_1, 2013_09_19_12_12_38_1_2,
  2013_09_27_04_56_12_1_3, 2013_10_05_01_34_10_1_0, 2013_10_12_00_03_54_1_1, 2013_10_19_00_37_36_1_2,
  2013_10_27_00_42_04_1_3, 2013_11_03_12_49_32_0_0, 2013_11_10_05_58_47_0_1, 2013_11_17_15_16_30_0_2,
  2013_11_25_19_30_21_0_3, 2013_12_03_00_22_19_0_0, 2013_12_09_15_13_09_0_1, 2013_12_17_09_29_20_0_2,
  2013_12_25_13_50_20_0_3]

/-- data/astro/astro-2014.json. -/
def astro2014 : List Nat := [
  2014_01_01_11_15_02_0_0, 2014_01_08_03_40_20_0_1, 2014_01_16_04_53_35_0_2, 2014_01_24_05_21_01_0_3,
  2014_01_30_21_40_35_0_0, 2014_02_06_19_22_33_0_1, 2014_02_14_23_54_46_0_2, 2014_02_22_17_16_56_0_3,
  2014_03_01_08_02_41_0_0, 2014_03_08_13_27_08_0_1, 2014_03_16_17_10_46_0_2, 2014_03_24_01_47_36_0_3,
  2014_03_30_19_48_06_1_0, 2014_04_07_09_31_44_1_1, 2014_04_15_08_45_18_1_2, 2014_04_22_08_53_06_1_3,
  2014_04_29_07_17_37_1_0, 2014_05_07_04_16_49_1_1, 2014_05_14_20_18_47_1_2, 2014_05_21_14_00_33_1_3,
  2014_05_28_19_43_03_1_0, 2014_06_05_21_40_58_1_1, 2014_06_13_05_13_45_1_2, 2014_06_19_19_40_05_1_3,
  2014_06_27_09_10_33_1_0, 2014_07_05_13_00_41_1_1, 2014_07_12_12_26_46_1_2, 2014_07_19_03_09_44_1_3,
  2014_07_26_23_42_51_1_0, 2014_08_04_01_50_56_1_1, 2014_08_10_19_10_51_1_2, 2014_08_17_13_27_01_1_3,
  2014_08_25_15_13_02_1_0, 2014_09_02_12_11_53_1_1, 2014_09_09_02_38_55_1_2, 2014_09_16_03_05_49_1_3,
  2014_09_24_07_13_32_1_0, 2014_10_01_20_33_02_1_1, 2014_10_08_11_50_43_1_2, 2014_10_15_20_13_16_1_3,
  2014_10_23_22_56_14_1_0, 2014_10_31_02_48_56_0_1, 2014_11_06_22_22_56_0_2, 2014_11_14_15_17_55_0_3,
  2014_11_22_12_32_04_0_0, 2014_11_29_10_07_23_0_1, 2014_12_06_12_27_13_0_2, 2014_12_14_12_53_53_0_3,
  2014_12_22_01_36_15_0_0, 2014_12_28_18_32_50_0_1]

/-- data/astro/astro-2015.json. -/
def astro2015 : List Nat := [
  2015_01_05_04_54_08_0_2, 2015_01_13_09_48_59_0_3, 2015_01_20_13_14_54_0_0, 2015_01_27_04_49_43_0_1,
  2015_02_03_23_10_00_0_2, 2015_02_12_03_52_02_0_3, 2015_02_18_23_49_18_0_0, 2015_02_25_17_15_04_0_1,
  2015_03_05_18_06_34_0_2, 2015_03_13_17_49_29_0_3, 2015_03_20_09_38_39_0_0, 2015_03_27_07_43_49_0_1,
  2015_04_04_13_07_21_1_2, 2015_04_12_04_45_12_1_3, 2015_04_18_19_59_19_1_0, 2015_04_26_00_56_49_1_1,
  2015_05_04_04_44_47_1_2, 2015_05_11_11_36_53_1_3, 2015_05_18_05_15_43_1_0, 2015_05_25_18_20_42_1_1,
  2015_06_02_17_21_57_1_2, 2015_06_09_16_43_08_1_3, 2015_06_16_15_07_42_1_0, 2015_06_24_12_04_07_1_1,
  2015_07_02_03_22_22_1_2, 2015_07_08_21_26_01_1_3, 2015_07_16_02_26_11_1_0, 2015_07_24_05_05_15_1_1,
  2015_07_31_11_45_46_1_2, 2015_08_07_03_05_31_1_3, 2015_08_14_15_54_47_1_0, 2015_08_22_20_32_12_1_1,
  2015_08_29_19_37_44_1_2, 2015_09_05_10_56_58_1_3, 2015_09_13_07_42_30_1_0, 2015_09_21_10_00_08_1_1,
  2015_09_28_03_52_06_1_2, 2015_10_04_22_08_13_1_3, 2015_10_13_01_06_39_1_0, 2015_10_20_21_32_13_1_1,
  2015_10_27_12_05_59_0_2, 2015_11_03_12_25_37_0_3, 2015_11_11_17_47_45_0_0, 2015_11_19_06_28_07_0_1,
  2015_11_25_22_44_50_0_2, 2015_12_03_07_42_06_0_3, 2015_12_11_10_29_59_0_0, 2015_12_18_15_15_09_0_1,
  2015_12_25_11_11_57_0_2]

/-- data/astro/astro-2016.json. -/
def astro2016 : List Nat := [
  2016_01_02_05_31_40_0_3, 2016_01_10_01_31_16_0_0, 2016_01_16_23_27_28_0_1, 2016_01_24_01_46_20_0_2,
  2016_02_01_03_29_05_0_3, 2016_02_08_14_40_00_0_0, 2016_02_15_07_47_51_0_1, 2016_02_22_18_20_33_0_2,
  2016_03_01_23_12_38_0_3, 2016_03_09_01_55_59_0_0, 2016_03_15_17_04_23_0_1, 2016_03_23_12_01_38_0_2,
  2016_03_31_16_18_41_1_3, 2016_04_07_12_25_20_1_0, 2016_04_14_05_00_44_1_1, 2016_04_22_06_25_00_1_2,
  2016_04_30_04_30_07_1_3, 2016_05_06_20_31_18_1_0, 2016_05_13_18_03_19_1_1, 2016_05_21_22_16_37_1_2,
  2016_05_29_13_13_41_1_3, 2016_06_05_04_01_45_1_0, 2016_06_12_09_10_39_1_1, 2016_06_20_12_04_58_1_2,
  2016_06_27_19_20_59_1_3, 2016_07_04_12_03_23_1_0, 2016_07_12_01_52_41_1_1, 2016_07_19_23_59_36_1_2,
  2016_07_27_00_02_35_1_3, 2016_08_02_21_46_40_1_0, 2016_08_10_19_22_16_1_1, 2016_08_18_10_29_45_1_2,
  2016_08_25_04_44_07_1_3, 2016_09_01_10_04_59_1_0, 2016_09_09_12_50_58_1_1, 2016_09_16_20_07_49_1_2,
  2016_09_23_10_59_09_1_3, 2016_10_01_01_13_14_1_0, 2016_10_09_05_35_14_1_1, 2016_10_16_05_25_07_1_2,
  2016_10_22_20_16_14_1_3, 2016_10_30_17_39_53_0_0, 2016_11_07_19_52_48_0_1, 2016_11_14_13_53_38_0_2,
  2016_11_21_08_34_58_0_3, 2016_11_29_12_19_35_0_0, 2016_12_07_09_03_58_0_1, 2016_12_14_00_06_55_0_2,
  2016_12_21_01_56_45_0_3, 2016_12_29_06_54_18_0_0]

/-- data/astro/astro-2017.json. -/
def astro2017 : List Nat := [
  2017_01_05_19_47_41_0_1, 2017_01_12_11_35_12_0_2, 2017_01_19_22_14_21_0_3, 2017_01_28_00_08_19_0_0,
  2017_02_04_04_19_47_0_1, 2017_02_11_00_33_58_0_2, 2017_02_18_19_35_13_0_3, 2017_02_26_15_00_15_0_0,
  2017_03_05_11_33_38_0_1, 2017_03_12_14_54_49_0_2, 2017_03_20_16_01_29_0_3, 2017_03_28_03_59_26_1_0,
  2017_04_03_19_40_54_1_1, 2017_04_11_07_09_17_1_2, 2017_04_19_11_00_05_1_3, 2017_04_26_13_18_11_1_0,
  2017_05_03_03_48_10_1_1, 2017_05_10_22_43_56_1_2, 2017_05_19_01_35_36_1_3, 2017_05_25_20_46_22_1_0,
  2017_06_01_13_43_00_1_1, 2017_06_09_14_11_15_1_2, 2017_06_17_12_35_01_1_3, 2017_06_24_03_32_43_1_0,
  2017_07_01_01_51_47_1_1, 2017_07_09_05_08_31_1_2, 2017_07_16_20_27_38_1_3, 2017_07_23_10_47_26_1_0,
  2017_07_30_16_23_57_1_1, 2017_08_07_19_12_47_1_2, 2017_08_15_02_16_51_1_3, 2017_08_21_19_31_34_1_0,
  2017_08_29_09_14_19_1_1, 2017_09_06_08_04_55_1_2, 2017_09_13_07_26_44_1_3, 2017_09_20_06_30_46_1_0,
  2017_09_28_03_55_09_1_1, 2017_10_05_19_41_56_1_2, 2017_10_12_13_27_15_1_3, 2017_10_19_20_12_38_1_0,
  2017_10_27_23_23_17_1_1, 2017_11_04_05_24_29_0_2, 2017_11_10_20_38_22_0_3, 2017_11_18_11_42_52_0_0,
  2017_11_26_17_03_28_0_1, 2017_12_03_15_48_30_0_2, 2017_12_10_07_53_02_0_3, 2017_12_18_06_31_29_0_0,
  2017_12_26_09_20_24_0_1]

/-- data/astro/astro-2018.json. -/
def astro2018 : List Nat := [
  2018_01_02_02_25_29_0_2, 2018_01_08_22_26_33_0_3, 2018_01_17_02_18_18_0_0, 2018_01_24_22_20_33_0_1,
  2018_01_31_13_27_46_0_2, 2018_02_07_15_55_49_0_3, 2018_02_15_21_06_51_0_0, 2018_02_23_08_09_21_0_1,
  2018_03_02_00_52_10_0_2, 2018_03_09_11_22_54_0_3, 2018_03_17_13_14_19_0_0, 2018_03_24_15_35_52_0_1,
  2018_03_31_13_37_47_1_2, 2018_04_08_08_21_01_1_3, 2018_04_16_02_59_53_1_0, 2018_04_22_22_46_50_1_1,
  2018_04_30_01_59_14_1_2, 2018_05_08_03_11_34_1_3, 2018_05_15_12_49_49_1_0, 2018_05_22_04_50_39_1_1,
  2018_05_29_15_20_48_1_2, 2018_06_06_19_34_08_1_3, 2018_06_13_20_45_04_1_0, 2018_06_20_11_52_34_1_1,
  2018_06_28_05_54_35_1_2, 2018_07_06_08_52_49_1_3, 2018_07_13_03_49_35_1_0, 2018_07_19_20_53_57_1_1,
  2018_07_27_21_22_19_1_2, 2018_08_04_19_19_50_1_3, 2018_08_11_10_59_07_1_0, 2018_08_18_08_49_54_1_1,
  2018_08_26_12_58_24_1_2, 2018_09_03_03_39_10_1_3, 2018_09_09_19_02_41_1_0, 2018_09_17_00_16_05_1_1,
  2018_09_25_03_54_49_1_2, 2018_10_02_10_47_15_1_3, 2018_10_09_04_47_50_1_0, 2018_10_16_19_02_29_1_1,
  2018_10_24_17_47_34_1_2, 2018_10_31_16_42_27_0_3, 2018_11_07_16_02_52_0_0, 2018_11_15_14_54_29_0_1,
  2018_11_23_05_41_26_0_2, 2018_11_30_00_21_18_0_3, 2018_12_07_07_21_42_0_0, 2018_12_15_11_49_37_0_1,
  2018_12_22_17_50_27_0_2, 2018_12_29_09_36_42_0_3]

/-- data/astro/astro-2019.json. -/
def astro2019 : List Nat := [
  2019_01_06_01_29_52_0_0, 2019_01_14_06_46_15_0_1, 2019_01_21_05_17_10_0_2, 2019_01_27_21_12_23_0_3,
  2019_02_04_21_04_53_0_0, 2019_02_12_22_26_34_0_1, 2019_02_19_15_53_58_0_2, 2019_02_26_11_29_41_0_3,
  2019_03_06_16_05_27_0_0, 2019_03_14_10_26_58_0_1, 2019_03_21_01_43_00_0_2, 2019_03_28_04_11_27_0_3,
  2019_04_05_09_52_22_1_0, 2019_04_12_20_06_03_1_1, 2019_04_19_12_12_18_1_2, 2019_04_26_23_19_26_1_3,
  2019_05_04_23_47_01_1_0, 2019_05_12_02_13_00_1_1, 2019_05_18_22_11_36_1_2, 2019_05_26_17_34_31_1_3,
  2019_06_03_11_02_59_1_0, 2019_06_10_07_00_34_1_1, 2019_06_17_09_31_18_1_2, 2019_06_25_10_48_00_1_3,
  2019_07_02_20_17_10_1_0, 2019_07_09_11_56_32_1_1, 2019_07_16_22_39_31_1_2, 2019_07_25_02_20_29_1_3,
  2019_08_01_04_12_55_1_0, 2019_08_07_18_32_41_1_1, 2019_08_15_13_31_17_1_2, 2019_08_23_15_58_55_1_3,
  2019_08_30_11_38_20_1_0, 2019_09_06_04_11_49_1_1, 2019_09_14_05_35_23_1_2, 2019_09_22_03_43_32_1_3,
  2019_09_28_19_27_54_1_0, 2019_10_05_17_48_04_1_1, 2019_10_13_22_10_50_1_2, 2019_10_21_13_41_37_1_3,
  2019_10_28_03_40_15_0_0, 2019_11_04_10_23_38_0_1, 2019_11_12_13_37_24_0_2, 2019_11_19_21_13_09_0_3,
  2019_11_26_15_07_41_0_0, 2019_12_04_06_58_54_0_1, 2019_12_12_05_14_52_0_2, 2019_12_19_04_59_20_0_3,
  2019_12_26_05_15_31_0_0]

/-- data/astro/astro-2020.json. -/
def astro2020 : List Nat := [
  2020_01_03_04_46_52_0_1, 2020_01_10_19_23_14_0_2, 2020_01_17_13_00_35_0_3, 2020_01_24_21_44_11_0_0,
  2020_02_02_01_43_28_0_1, 2020_02_09_07_34_35_0_2, 2020_02_15_22_19_09_0_3, 2020_02_23_15_33_44_0_0,
  2020_03_02_19_58_38_0_1, 2020_03_09_17_48_35_0_2, 2020_03_16_09_35_39_0_3, 2020_03_24_09_29_36_0_0,
  2020_04_01_11_21_52_1_1, 2020_04_08_03_35_36_1_2, 2020_04_14_23_56_57_1_3, 2020_04_23_03_27_00_1_0,
  2020_04_30_21_38_44_1_1, 2020_05_07_11_45_35_1_2, 2020_05_14_15_03_18_1_3, 2020_05_22_18_39_49_1_0,
  2020_05_30_04_30_22_1_1, 2020_06_05_20_12_43_1_2, 2020_06_13_07_24_59_1_3, 2020_06_21_07_42_16_1_0,
  2020_06_28_09_16_30_1_1, 2020_07_05_05_44_57_1_2, 2020_07_13_00_31_28_1_3, 2020_07_20_18_33_36_1_0,
  2020_07_27_13_33_47_1_1, 2020_08_03_16_59_38_1_2, 2020_08_11_17_47_48_1_3, 2020_08_19_03_42_15_1_0,
  2020_08_25_18_59_11_1_1, 2020_09_02_06_23_12_1_2, 2020_09_10_10_28_18_1_3, 2020_09_17_12_00_59_1_0,
  2020_09_24_02_56_34_1_1, 2020_10_01_22_06_55_1_2, 2020_10_10_01_41_24_1_3, 2020_10_16_20_32_14_1_0,
  2020_10_23_14_24_17_1_1, 2020_10_31_14_51_29_0_2, 2020_11_08_13_47_38_0_3, 2020_11_15_05_08_54_0_0,
  2020_11_22_04_45_54_0_1, 2020_11_30_09_32_04_0_2, 2020_12_08_00_37_59_0_3, 2020_12_14_16_18_45_0_0,
  2020_12_21_23_42_31_0_1, 2020_12_30_03_30_24_0_2]

/-- data/astro/astro-2021.json. -/
def astro2021 : List Nat := [
  2021_01_06_09_38_35_0_3, 2021_01_13_05_02_37_0_0, 2021_01_20_21_03_35_0_1, 2021_01_28_19_18_35_0_2,
  2021_02_04_17_38_42_0_3, 2021_02_11_19_08_11_0_0, 2021_02_19_18_49_06_0_1, 2021_02_27_08_19_36_0_2,
  2021_03_06_01_32_00_0_3, 2021_03_13_10_23_32_0_0, 2021_03_21_14_41_46_0_1, 2021_03_28_19_50_04_1_2,
  2021_04_04_11_04_12_1_3, 2021_04_12_03_32_56_1_0, 2021_04_20_08_00_01_1_1, 2021_04_27_04_33_04_1_2,
  2021_05_03_20_51_43_1_3, 2021_05_11_20_01_33_1_0, 2021_05_19_20_13_13_1_1, 2021_05_26_12_14_51_1_2,
  2021_06_02_08_26_04_1_3, 2021_06_10_11_54_05_1_0, 2021_06_18_04_54_44_1_1, 2021_06_24_19_40_14_1_2,
  2021_07_01_22_12_39_1_3, 2021_07_10_02_17_43_1_0, 2021_07_17_11_11_37_1_1, 2021_07_24_03_37_27_1_2,
  2021_07_31_14_18_16_1_3, 2021_08_08_14_50_46_1_0, 2021_08_15_16_21_04_1_1, 2021_08_22_13_02_15_1_2,
  2021_08_30_08_15_02_1_3, 2021_09_07_01_52_01_1_0, 2021_09_13_21_41_20_1_1, 2021_09_21_00_54_44_1_2,
  2021_09_29_02_58_24_1_3, 2021_10_06_12_05_44_1_0, 2021_10_13_04_27_35_1_1, 2021_10_20_15_57_41_1_2,
  2021_10_28_21_06_44_1_3, 2021_11_04_21_15_26_0_0, 2021_11_11_12_48_22_0_1, 2021_11_19_08_59_41_0_2,
  2021_11_27_12_29_51_0_3, 2021_12_04_07_44_30_0_0, 2021_12_11_01_37_32_0_1, 2021_12_19_04_37_58_0_2,
  2021_12_27_02_26_00_0_3]

/-- data/astro/astro-2022.json. -/
def astro2022 : List Nat := [
  2022_01_02_18_35_49_0_0, 2022_01_09_18_13_20_0_1, 2022_01_17_23_51_09_0_2, 2022_01_25_13_42_58_0_3,
  2022_02_01_05_49_10_0_0, 2022_02_08_13_51_53_0_1, 2022_02_16_16_59_41_0_2, 2022_02_23_22_34_32_0_3,
  2022_03_02_17_38_16_0_0, 2022_03_10_10_46_24_0_1, 2022_03_18_07_20_37_0_2, 2022_03_25_05_39_24_0_3,
  2022_04_01_07_27_39_1_0, 2022_04_09_07_48_25_1_1, 2022_04_16_19_57_32_1_2, 2022_04_23_12_58_14_1_3,
  2022_04_30_21_30_44_1_0, 2022_05_09_01_22_13_1_1, 2022_05_16_05_15_52_1_2, 2022_05_22_19_44_34_1_3,
  2022_05_30_12_32_11_1_0, 2022_06_07_15_49_12_1_1, 2022_06_14_12_52_37_1_2, 2022_06_21_04_11_53_1_3,
  2022_06_29_03_53_25_1_0, 2022_07_07_03_14_56_1_1, 2022_07_13_19_38_06_1_2, 2022_07_20_15_19_23_1_3,
  2022_07_28_18_55_26_1_0, 2022_08_05_12_07_31_1_1, 2022_08_12_02_36_03_1_2, 2022_08_19_05_36_34_1_3,
  2022_08_27_09_16_55_1_0, 2022_09_03_19_08_50_1_1, 2022_09_10_10_58_51_1_2, 2022_09_17_22_52_17_1_3,
  2022_09_25_22_54_04_1_0, 2022_10_03_01_15_26_1_1, 2022_10_09_21_54_41_1_2, 2022_10_17_18_16_03_1_3,
  2022_10_25_11_48_20_1_0, 2022_11_01_06_38_53_0_1, 2022_11_08_11_02_46_0_2, 2022_11_16_13_29_29_0_3,
  2022_11_23_22_57_21_0_0, 2022_11_30_14_38_32_0_1, 2022_12_08_04_09_48_0_2, 2022_12_16_08_59_27_0_3,
  2022_12_23_10_17_56_0_0, 2022_12_30_01_22_34_0_1]

/-- data/astro/astro-2023.json. -/
def astro2023 : List Nat := [
  2023_01_06_23_09_55_0_2, 2023_01_15_02_13_27_0_3, 2023_01_21_20_55_30_0_0, 2023_01_28_15_20_24_0_1,
  2023_02_05_18_30_44_0_2, 2023_02_13_16_03_15_0_3, 2023_02_20_07_09_05_0_0, 2023_02_27_08_06_37_0_1,
  2023_03_07_12_42_49_0_2, 2023_03_15_02_10_17_0_3, 2023_03_21_17_26_44_0_0, 2023_03_29_03_33_12_1_1,
  2023_04_06_05_37_18_1_2, 2023_04_13_10_12_53_1_3, 2023_04_20_05_15_48_1_0, 2023_04_27_22_21_08_1_1,
  2023_05_05_18_36_47_1_2, 2023_05_12_15_29_26_1_3, 2023_05_19_16_55_56_1_0, 2023_05_27_16_23_49_1_1,
  2023_06_04_04_43_56_1_2, 2023_06_10_20_32_26_1_3, 2023_06_18_05_39_10_1_0, 2023_06_26_08_51_19_1_1,
  2023_07_03_12_40_30_1_2, 2023_07_10_02_49_07_1_3, 2023_07_17_19_33_06_1_0, 2023_07_25_23_08_12_1_1,
  2023_08_01_19_33_26_1_2, 2023_08_08_11_29_56_1_3, 2023_08_16_10_38_49_1_0, 2023_08_24_10_58_21_1_1,
  2023_08_31_02_37_05_1_2, 2023_09_06_23_22_32_1_3, 2023_09_15_02_40_05_1_0, 2023_09_22_20_32_39_1_1,
  2023_09_29_10_58_21_1_2, 2023_10_06_14_49_01_1_3, 2023_10_14_18_55_08_1_0, 2023_10_22_04_30_13_1_1,
  2023_10_28_21_24_27_1_2, 2023_11_05_08_38_45_0_3, 2023_11_13_09_27_15_0_0, 2023_11_20_10_50_50_0_1,
  2023_11_27_09_16_41_0_2, 2023_12_05_05_51_58_0_3, 2023_12_12_23_32_07_0_0, 2023_12_19_18_40_28_0_1,
  2023_12_27_00_33_43_0_2]

/-- data/astro/astro-2024.json. -/
def astro2024 : List Nat := [
  2024_01_04_03_32_56_0_3, 2024_01_11_11_58_05_0_0, 2024_01_18_03_53_55_0_1, 2024_01_25_17_54_43_0_2,
  2024_02_02_23_20_08_0_3, 2024_02_09_23_00_44_0_0, 2024_02_16_15_02_06_0_1, 2024_02_24_12_31_19_0_2,
  2024_03_03_15_25_25_0_3, 2024_03_10_09_02_45_0_0, 2024_03_17_04_11_50_0_1, 2024_03_25_07_01_37_0_2,
  2024_04_02_04_15_50_1_3, 2024_04_08_19_23_21_1_0, 2024_04_15_20_14_29_1_1, 2024_04_24_00_51_09_1_2,
  2024_05_01_12_27_52_1_3, 2024_05_08_04_24_19_1_0, 2024_05_15_12_49_35_1_1, 2024_05_23_14_55_52_1_2,
  2024_05_30_18_13_39_1_3, 2024_06_06_13_40_02_1_0, 2024_06_14_06_19_53_1_1, 2024_06_22_02_10_32_1_2,
  2024_06_28_22_55_05_1_3, 2024_07_05_23_59_17_1_0, 2024_07_13_23_49_54_1_1, 2024_07_21_11_19_50_1_2,
  2024_07_28_03_54_02_1_3, 2024_08_04_12_14_21_1_0, 2024_08_12_16_19_48_1_1, 2024_08_19_19_28_35_1_2,
  2024_08_26_10_28_58_1_3, 2024_09_03_02_56_45_1_0, 2024_09_11_07_06_47_1_1, 2024_09_18_03_36_43_1_2,
  2024_09_24_19_52_38_1_3, 2024_10_02_19_50_32_1_0, 2024_10_10_19_56_19_1_1, 2024_10_17_12_27_54_1_2,
  2024_10_24_09_05_10_1_3, 2024_11_01_12_48_13_0_0, 2024_11_09_05_56_35_0_1, 2024_11_15_21_29_37_0_2,
  2024_11_23_01_29_58_0_3, 2024_12_01_06_22_22_0_0, 2024_12_08_15_27_43_0_1, 2024_12_15_09_02_34_0_2,
  2024_12_22_22_19_56_0_3, 2024_12_30_22_27_49_0_0]

/-- data/astro/astro-2025.json. -/
def astro2025 : List Nat := [
  2025_01_06_23_57_35_0_1, 2025_01_13_22_27_44_0_2, 2025_01_21_20_32_11_0_3, 2025_01_29_12_37_18_0_0,
  2025_02_05_08_03_50_0_1, 2025_02_12_13_54_26_0_2, 2025_02_20_17_34_40_0_3, 2025_02_28_00_46_43_0_0,
  2025_03_06_16_33_39_0_1, 2025_03_14_06_55_56_0_2, 2025_03_22_11_32_05_0_3, 2025_03_29_11_00_07_0_0,
  2025_04_05_03_16_44_1_1, 2025_04_13_01_23_56_1_2, 2025_04_21_02_37_41_1_3, 2025_04_27_20_33_22_1_0,
  2025_05_04_14_53_27_1_1, 2025_05_12_17_58_06_1_2, 2025_05_20_13_00_30_1_3, 2025_05_27_04_04_25_1_0,
  2025_06_03_04_41_54_1_1, 2025_06_11_08_46_06_1_2, 2025_06_18_20_20_58_1_3, 2025_06_25_11_33_30_1_0,
  2025_07_02_20_30_19_1_1, 2025_07_10_21_38_54_1_2, 2025_07_18_01_39_41_1_3, 2025_07_24_20_12_27_1_0,
  2025_08_01_13_41_12_1_1, 2025_08_09_08_57_07_1_2, 2025_08_16_06_14_26_1_3, 2025_08_23_07_07_06_1_0,
  2025_08_31_07_25_30_1_1, 2025_09_07_19_10_41_1_2, 2025_09_14_11_35_09_1_3, 2025_09_21_20_54_36_1_0,
  2025_09_30_00_54_47_1_1, 2025_10_07_04_48_57_1_2, 2025_10_13_19_14_31_1_3, 2025_10_21_13_25_58_1_0,
  2025_10_29_16_22_01_0_1, 2025_11_05_13_20_26_0_2, 2025_11_12_05_29_37_0_3, 2025_11_20_06_48_16_0_0,
  2025_11_28_06_59_45_0_1, 2025_12_04_23_15_18_0_2, 2025_12_11_20_52_48_0_3, 2025_12_20_01_44_25_0_0,
  2025_12_27_19_10_38_0_1]

/-- data/astro/astro-2026.json. -/
def astro2026 : List Nat := [
  2026_01_03_10_04_15_0_2, 2026_01_10_15_49_14_0_3, 2026_01_18_19_53_17_0_0, 2026_01_26_04_48_23_0_1,
  2026_02_01_22_10_36_0_2, 2026_02_09_12_44_43_0_3, 2026_02_17_12_03_05_0_0, 2026_02_24_12_28_59_0_1,
  2026_03_03_11_39_12_0_2, 2026_03_11_09_41_34_0_3, 2026_03_19_01_26_01_0_0, 2026_03_25_19_19_22_0_1,
  2026_04_02_03_13_20_1_2, 2026_04_10_05_55_20_1_3, 2026_04_17_12_54_18_1_0, 2026_04_24_03_33_22_1_1,
  2026_05_01_18_24_43_1_2, 2026_05_09_22_13_44_1_3, 2026_05_16_21_03_07_1_0, 2026_05_23_12_12_05_1_1,
  2026_05_31_09_46_46_1_2, 2026_06_08_11_03_04_1_3, 2026_06_15_03_56_00_1_0, 2026_06_21_22_55_57_1_1,
  2026_06_30_00_58_10_1_2, 2026_07_07_20_30_54_1_3, 2026_07_14_10_45_07_1_0, 2026_07_21_12_05_48_1_1,
  2026_07_29_15_37_11_1_2, 2026_08_06_03_22_53_1_3, 2026_08_12_18_37_37_1_0, 2026_08_20_03_46_34_1_1,
  2026_08_28_05_19_57_1_2, 2026_09_04_08_52_21_1_3, 2026_09_11_04_27_18_1_0, 2026_09_18_21_44_25_1_1,
  2026_09_26_17_50_21_1_2, 2026_10_03_14_26_15_1_3, 2026_10_10_16_50_11_1_0, 2026_10_18_17_13_37_1_1,
  2026_10_26_04_13_07_0_2, 2026_11_01_20_30_02_0_3, 2026_11_09_07_02_30_0_0, 2026_11_17_11_48_31_0_1,
  2026_11_24_14_55_02_0_2, 2026_12_01_06_10_28_0_3, 2026_12_09_00_52_49_0_0, 2026_12_17_05_43_09_0_1,
  2026_12_24_01_29_47_0_2, 2026_12_30_19_00_57_0_3]

/-- data/astro/astro-2027.json. -/
def astro2027 : List Nat := [
  2027_01_07_20_25_29_0_0, 2027_01_15_20_34_51_0_1, 2027_01_22_12_18_32_0_2, 2027_01_29_10_56_48_0_3,
  2027_02_06_15_57_11_0_0, 2027_02_14_07_58_26_0_1, 2027_02_20_23_24_11_0_2, 2027_02_28_05_18_32_0_3,
  2027_03_08_09_31_20_0_0, 2027_03_15_16_25_05_0_1, 2027_03_22_10_44_02_0_2, 2027_03_30_01_56_36_1_3,
  2027_04_07_00_53_30_1_0, 2027_04_13_23_57_01_1_1, 2027_04_20_23_27_26_1_2, 2027_04_28_21_20_17_1_3,
  2027_05_06_12_00_23_1_0, 2027_05_13_05_44_41_1_1, 2027_05_20_11_59_28_1_2, 2027_05_28_14_59_57_1_3,
  2027_06_04_20_41_41_1_0, 2027_06_11_11_57_16_1_1, 2027_06_19_01_45_12_1_2, 2027_06_27_05_56_13_1_3,
  2027_07_04_04_03_28_1_0, 2027_07_10_19_40_27_1_1, 2027_07_18_16_46_16_1_2, 2027_07_26_17_56_36_1_3,
  2027_08_02_11_06_22_1_0, 2027_08_09_05_55_20_1_1, 2027_08_17_08_30_22_1_2, 2027_08_25_03_28_49_1_3,
  2027_08_31_18_42_00_1_0, 2027_09_07_19_31_57_1_1, 2027_09_16_00_05_23_1_2, 2027_09_23_11_21_48_1_3,
  2027_09_30_03_36_43_1_0, 2027_10_07_12_47_44_1_1, 2027_10_15_14_48_56_1_2, 2027_10_22_18_30_37_1_3,
  2027_10_29_14_36_58_1_0, 2027_11_06_07_59_58_0_1, 2027_11_14_03_27_49_0_2, 2027_11_21_00_50_05_0_3,
  2027_11_28_03_25_08_0_0, 2027_12_06_05_22_02_0_1, 2027_12_13_16_10_37_0_2, 2027_12_20_09_13_07_0_3,
  2027_12_27_20_13_48_0_0]

/-- data/astro/astro-2028.json. -/
def astro2028 : List Nat := [
  2028_01_05_01_41_04_0_1, 2028_01_12_04_04_33_0_2, 2028_01_18_19_28_09_0_3, 2028_01_26_15_14_06_0_0,
  2028_02_03_19_11_22_0_1, 2028_02_10_15_04_37_0_2, 2028_02_17_08_10_06_0_3, 2028_02_25_10_38_59_0_0,
  2028_03_04_09_02_44_0_1, 2028_03_11_01_06_31_0_2, 2028_03_17_23_24_58_0_3, 2028_03_26_05_33_25_1_0,
  2028_04_02_20_15_43_1_1, 2028_04_09_11_26_59_1_2, 2028_04_16_17_38_36_1_3, 2028_04_24_20_49_03_1_0,
  2028_05_02_03_26_34_1_1, 2028_05_08_20_49_24_1_2, 2028_05_16_11_44_23_1_3, 2028_05_24_09_17_55_1_0,
  2028_05_31_08_38_05_1_1, 2028_06_07_07_09_36_1_2, 2028_06_15_05_29_06_1_3, 2028_06_22_19_28_56_1_0,
  2028_06_29_13_12_36_1_1, 2028_07_06_19_12_07_1_2, 2028_07_14_21_59_07_1_3, 2028_07_22_04_02_57_1_0,
  2028_07_28_18_42_13_1_1, 2028_08_05_09_11_36_1_2, 2028_08_13_12_48_10_1_3, 2028_08_20_11_44_49_1_0,
  2028_08_27_02_37_17_1_1, 2028_09_04_00_49_34_1_2, 2028_09_12_01_48_04_1_3, 2028_09_18_19_24_31_1_0,
  2028_09_25_14_10_22_1_1, 2028_10_03_17_26_52_1_2, 2028_10_11_12_58_19_1_3, 2028_10_18_03_57_25_1_0,
  2028_10_25_05_52_31_1_1, 2028_11_02_09_19_02_0_2, 2028_11_09_21_26_50_0_3, 2028_11_16_13_18_40_0_0,
  2028_11_24_00_13_34_0_1, 2028_12_02_01_41_40_0_2, 2028_12_09_05_39_56_0_3, 2028_12_16_02_07_24_0_0,
  2028_12_23_21_44_41_0_1]

/-- data/astro/astro-2029.json. -/
def astro2029 : List Nat := [
  2029_01_07_13_27_41_0_3, 2029_01_14_17_26_03_0_0, 2029_01_22_19_24_20_0_1, 2029_01_30_06_04_49_0_2,
  2029_02_05_21_53_52_0_3, 2029_02_13_10_33_17_0_0, 2029_02_21_15_11_32_0_1, 2029_02_28_17_11_27_0_2,
  2029_03_07_07_53_23_0_3, 2029_03_15_04_21_10_0_0, 2029_03_23_07_34_31_0_1, 2029_03_30_03_27_30_1_2,
  2029_04_05_20_53_04_1_3, 2029_04_13_22_42_02_1_0, 2029_04_21_20_51_14_1_1, 2029_04_28_11_37_44_1_2,
  2029_05_05_10_49_11_1_3, 2029_05_13_14_43_45_1_0, 2029_05_21_05_17_08_1_1, 2029_05_27_19_38_16_1_2,
  2029_06_04_02_20_12_1_3, 2029_06_12_04_51_52_1_0, 2029_06_19_10_55_16_1_1, 2029_06_26_04_23_06_1_2,
  2029_07_03_18_59_52_1_3, 2029_07_11_16_52_07_1_0, 2029_07_18_15_15_45_1_1, 2029_07_25_14_36_42_1_2,
  2029_08_02_12_18_37_1_3, 2029_08_10_02_56_35_1_0, 2029_08_16_19_56_55_1_1, 2029_08_24_02_52_16_1_2,
  2029_09_01_05_36_03_1_3, 2029_09_08_11_45_01_1_0, 2029_09_15_02_30_51_1_1, 2029_09_22_17_30_26_1_2,
  2029_09_30_21_58_48_1_3, 2029_10_07_20_15_12_1_0, 2029_10_14_12_10_01_1_1, 2029_10_22_10_29_04_1_2,
  2029_10_30_11_33_25_0_3, 2029_11_06_04_24_59_0_0, 2029_11_13_00_35_34_0_1, 2029_11_21_04_04_35_0_2,
  2029_11_28_23_48_35_0_3, 2029_12_05_14_53_21_0_0, 2029_12_12_17_49_36_0_1, 2029_12_20_22_47_56_0_2,
  2029_12_28_09_49_48_0_3]

/-- data/astro/astro-2030.json. -/
def astro2030 : List Nat := [
  2030_01_04_02_51_14_0_0, 2030_01_11_14_07_05_0_1, 2030_01_19_15_56_09_0_2, 2030_01_26_18_15_26_0_3,
  2030_02_02_16_09_40_0_0, 2030_02_10_11_51_06_0_1, 2030_02_18_06_22_06_0_2, 2030_02_25_01_59_10_0_3,
  2030_03_04_06_37_03_0_0, 2030_03_12_08_49_05_0_1, 2030_03_19_17_58_37_0_2, 2030_03_26_09_52_59_0_3,
  2030_04_02_23_04_44_1_0, 2030_04_11_03_58_05_1_1, 2030_04_18_04_21_40_1_2, 2030_04_24_19_40_23_1_3,
  2030_05_02_15_13_50_1_0, 2030_05_10_18_12_07_1_1, 2030_05_17_12_20_05_1_2, 2030_05_24_05_58_34_1_3,
  2030_06_01_07_22_23_1_0, 2030_06_09_04_35_48_1_1, 2030_06_15_19_41_07_1_2, 2030_06_22_18_20_48_1_3,
  2030_06_30_22_35_01_1_0, 2030_07_08_12_02_04_1_1, 2030_07_15_03_11_50_1_2, 2030_07_22_09_09_01_1_3,
  2030_07_30_12_11_13_1_0, 2030_08_06_17_43_27_1_1, 2030_08_13_11_44_17_1_2, 2030_08_21_02_16_57_1_3,
  2030_08_29_00_07_19_1_0, 2030_09_04_22_56_51_1_1, 2030_09_11_22_17_33_1_2, 2030_09_19_20_57_36_1_3,
  2030_09_27_10_54_37_1_0, 2030_10_04_04_58_02_1_1, 2030_10_11_11_46_52_1_2, 2030_10_19_15_51_25_1_3,
  2030_10_26_21_17_15_1_0, 2030_11_02_11_58_03_0_1, 2030_11_10_03_31_34_0_2, 2030_11_18_08_33_55_0_3,
  2030_11_25_06_47_08_0_0, 2030_12_01_22_58_24_0_1, 2030_12_09_22_42_08_0_2, 2030_12_18_00_02_55_0_3,
  2030_12_24_17_33_21_0_0]

/-- data/astro/astro-2031.json. -/
def astro2031 : List Nat := [
  2031_01_08_18_27_24_0_2, 2031_01_16_12_48_35_0_3, 2031_01_23_04_32_54_0_0, 2031_01_30_07_44_09_0_1,
  2031_02_07_12_48_19_0_2, 2031_02_14_22_51_04_0_3, 2031_02_21_15_51_30_0_0, 2031_03_01_04_02_48_0_1,
  2031_03_09_04_32_15_0_2, 2031_03_16_06_37_22_0_3, 2031_03_23_03_52_02_0_0, 2031_03_31_01_32_38_1_1,
  2031_04_07_18_23_52_1_2, 2031_04_14_13_59_38_1_3, 2031_04_21_17_59_54_1_0, 2031_04_29_20_20_16_1_1,
  2031_05_07_04_42_03_1_2, 2031_05_13_20_08_39_1_3, 2031_05_21_08_19_36_1_0, 2031_05_29_12_20_40_1_1,
  2031_06_05_13_00_03_1_2, 2031_06_12_03_22_07_1_3, 2031_06_19_23_26_30_1_0, 2031_06_28_01_20_13_1_1,
  2031_07_04_20_02_21_1_2, 2031_07_11_12_51_06_1_3, 2031_07_19_14_41_26_1_0, 2031_07_27_11_36_10_1_1,
  2031_08_03_02_46_30_1_2, 2031_08_10_01_24_45_1_3, 2031_08_18_05_32_56_1_0, 2031_08_25_19_41_13_1_1,
  2031_09_01_10_21_08_1_2, 2031_09_08_17_15_18_1_3, 2031_09_16_19_47_09_1_0, 2031_09_24_02_21_25_1_1,
  2031_09_30_19_58_02_1_2, 2031_10_08_11_51_17_1_3, 2031_10_16_09_20_47_1_0, 2031_10_23_08_38_18_1_1,
  2031_10_30_07_33_05_0_2, 2031_11_07_07_04_11_0_3, 2031_11_14_21_09_33_0_0, 2031_11_21_14_46_42_0_1,
  2031_11_28_23_19_21_0_2, 2031_12_07_03_22_25_0_3, 2031_12_14_09_05_50_0_0, 2031_12_21_00_01_53_0_1,
  2031_12_28_17_33_51_0_2]

/-- data/astro/astro-2032.json. -/
def astro2032 : List Nat := [
  2032_01_05_22_06_32_0_3, 2032_01_12_20_07_15_0_0, 2032_01_19_12_14_54_0_1, 2032_01_27_12_53_01_0_2,
  2032_02_04_13_50_20_0_3, 2032_02_11_06_25_37_0_0, 2032_02_18_03_28_39_0_1, 2032_02_26_07_43_54_0_2,
  2032_03_05_01_47_52_0_3, 2032_03_11_16_26_47_0_0, 2032_03_18_20_56_01_0_1, 2032_03_27_00_47_40_0_2,
  2032_04_03_11_10_57_1_3, 2032_04_10_03_41_59_1_0, 2032_04_17_16_24_28_1_1, 2032_04_25_16_11_49_1_2,
  2032_05_02_17_02_31_1_3, 2032_05_09_14_38_16_1_0, 2032_05_17_10_44_39_1_1, 2032_05_25_03_39_39_1_2,
  2032_05_31_21_52_18_1_3, 2032_06_08_02_34_35_1_0, 2032_06_16_04_01_57_1_1, 2032_06_23_12_34_54_1_2,
  2032_06_30_03_13_22_1_3, 2032_07_07_15_43_41_1_0, 2032_07_15_19_34_15_1_1, 2032_07_22_19_53_59_1_2,
  2032_07_29_10_27_21_1_3, 2032_08_06_06_13_06_1_0, 2032_08_14_08_52_50_1_1, 2032_08_21_02_49_09_1_2,
  2032_08_27_20_35_31_1_3, 2032_09_04_21_57_42_1_0, 2032_09_12_19_50_39_1_1, 2032_09_19_10_31_57_1_2,
  2032_09_26_10_14_17_1_3, 2032_10_04_14_27_08_1_0, 2032_10_12_04_48_50_1_1, 2032_10_18_19_59_13_1_2,
  2032_10_26_03_30_56_1_3, 2032_11_03_05_45_26_0_0, 2032_11_10_11_34_33_0_1, 2032_11_17_06_42_54_0_2,
  2032_11_24_22_50_46_0_3, 2032_12_02_20_53_20_0_0, 2032_12_09_19_09_58_0_1, 2032_12_16_20_49_44_0_2,
  2032_12_24_20_42_17_0_3]

/-- data/astro/astro-2033.json. -/
def astro2033 : List Nat := [
  2033_01_01_10_17_41_0_0, 2033_01_08_03_35_47_0_1, 2033_01_15_13_07_43_0_2, 2033_01_23_17_48_02_0_3,
  2033_01_30_22_00_56_0_0, 2033_02_06_13_35_14_0_1, 2033_02_14_07_04_42_0_2, 2033_02_22_11_54_55_0_3,
  2033_03_01_08_25_12_0_0, 2033_03_08_01_27_44_0_1, 2033_03_16_01_37_59_0_2, 2033_03_24_01_50_57_0_3,
  2033_03_30_18_53_37_1_0, 2033_04_06_16_14_37_1_1, 2033_04_14_20_18_36_1_2, 2033_04_22_12_42_39_1_3,
  2033_04_29_03_48_07_1_0, 2033_05_06_07_46_23_1_1, 2033_05_14_11_44_53_1_2]

/-- The files of data.go by year: `some rows` for a file with data, `none` for one with error code "warn_no_data". -/
def embeddedTable : List (Int × Option (List Nat)) := [
  (1900, none),
  (1901, none),
  (1902, some astro1902),
  (1903, some astro1903),
  (1904, some astro1904),
  (1905, some astro1905),
  (1906, some astro1906),
  (1907, some astro1907),
  (1908, some astro1908),
  (1909, some astro1909),
  (1910, some astro1910),
  (1911, some astro1911),
  (1912, some astro1912),
  (1913, some astro1913),
  (1914, some astro1914),
  (1915, some astro1915),
  (1916, some astro1916),
  (1917, some astro1917),
  (1918, some astro1918),
  (1919, some astro1919),
  (1920, some astro1920),
  (1921, some astro1921),
  (1922, some astro1922),
  (1923, some astro1923),
  (1924, some astro1924),
  (1925, some astro1925),
  (1926, some astro1926),
  (1927, some astro1927),
  (1928, some astro1928),
  (1929, some astro1929),
  (1930, some astro1930),
  (1931, some astro1931),
  (1932, some astro1932),
  (1933, some astro1933),
  (1934, some astro1934),
  (1935, some astro1935),
  (1936, some astro1936),
  (1937, some astro1937),
  (1938, some astro1938),
  (1939, some astro1939),
  (1940, some astro1940),
  (1941, some astro1941),
  (1942, some astro1942),
  (1943, some astro1943),
  (1944, some astro1944),
  (1945, some astro1945),
  (1946, some astro1946),
  (1947, some astro1947),
  (1948, some astro1948),
  (1949, some astro1949),
  (1950, some astro1950),
  (1951, some astro1951),
  (1952, some astro1952),
  (1953, some astro1953),
  (1954, some astro1954),
  (1955, some astro1955),
  (1956, some astro1956),
  (1957, some astro1957),
  (1958, some astro1958),
  (1959, some astro1959),
  (1960, some astro1960),
  (1961, some astro1961),
  (1962, some astro1962),
  (1963, some astro1963),
  (1964, some astro1964),
  (1965, some astro1965),
  (1966, some astro1966),
  (1967, some astro1967),
  (1968, some astro1968),
  (1969, some astro1969),
  (1970, none),
  (1971, some astro1971),
  (1972, some astro1972),
  (1973, some astro1973),
  (1974, some astro1974),
  (1975, some astro1975),
  (1976, some astro1976),
  (1977, some astro1977),
  (1978, some astro1978),
  (1979, some astro1979),
  (1980, some astro1980),
  (1981, some astro1981),
  (1982, some astro1982),
  (1983, some astro1983),
  (1984, some astro1984),
  (1985, some astro1985),
  (1986, some astro1986),
  (1987, some astro1987),
  (1988, some astro1988),
  (1989, some astro1989),
  (1990, some astro1990),
  (1991, some astro1991),
  (1992, some astro1992),
  (1993, some astro1993),
  (1994, some astro1994),
  (1995, some astro1995),
  (1996, some astro1996),
  (1997, some astro1997),
  (1998, some astro1998),
  (1999, some astro1999),
  (2000, some astro2000),
  (2001, some astro2001),
  (2002, some astro2002),
  (2003, some astro2003),
  (2004, some astro2004),
  (2005, some astro2005),
  (2006, some astro2006),
  (2007, some astro2007),
  (2008, some astro2008),
  (2009, some astro2009),
  (2010, some astro2010),
  (2011, some astro2011),
  (2012, some astro2012),
  (2013, some astro2013),
  (2014, some astro2014),
  (2015, some astro2015),
  (2016, some astro2016),
  (2017, some astro2017),
  (2018, some astro2018),
  (2019, some astro2019),
  (2020, some astro2020),
  (2021, some astro2021),
  (2022, some astro2022),
  (2023, some astro2023),
  (2024, some astro2024),
  (2025, some astro2025),
  (2026, some astro2026),
  (2027, some astro2027),
  (2028, some astro2028),
  (2029, some astro2029),
  (2030, some astro2030),
  (2031, some astro2031),
  (2032, some astro2032),
  (2033, some astro2033),
  (2034, none),
  (2035, none),
  (2036, none),
  (2037, none),
  (2038, none),
  (2039, none),
  (2040, none)]

/-- What `FSByte` and `json.Unmarshal` give for the file of a year (astro_moon.go:52-68), with the embedded data. -/
def embeddedFiles (year : Int) : AstroFile :=
  match embeddedTable.find? (fun e => e.1 == year) with
  | none => .missing
  | some (_, none) => .resp true "warn_no_data" []
  | some (_, some rows) => .resp true "" (rows.map aerisMoon)

end Verif.Model
