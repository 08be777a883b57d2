import Verif.Spec.Strangers
import Verif.Lemmas.Base64
import Verif.Lemmas.Decide

/-!
The signatures of all keys of one byte under one secret differ. Used to show that the hypotheses of
theorems are met. The tables were printed by evaluating the model; that they are right is checked by the
theorems `signatures0` to `signatures15`.
-/

namespace OAuth2

open Spec

/-- The beginning of the HMAC of a key of one byte under the secret `key`. -/
def beginning (i : Nat) : Str := (hmacSHA256 b!"key" [UInt8.ofNat i]).take 3

def table0 : List Str := [
    [138, 141, 251], [70, 61, 45], [204, 91, 131], [64, 162, 242],
    [248, 72, 231], [97, 168, 200], [9, 255, 97], [55, 118, 101],
    [231, 103, 6], [76, 11, 220], [46, 32, 35], [228, 82, 252],
    [230, 202, 64], [235, 190, 14], [204, 108, 112], [114, 124, 189]]

theorem signatures0 : (List.range' 0 16).map beginning = table0 := by decide +kernel

def table1 : List Str := [
    [48, 168, 252], [146, 85, 104], [75, 255, 132], [104, 157, 173],
    [219, 180, 203], [203, 119, 223], [200, 7, 140], [104, 207, 185],
    [144, 179, 160], [189, 213, 66], [65, 91, 229], [139, 234, 225],
    [151, 189, 30], [203, 118, 156], [87, 140, 143], [98, 107, 13]]

theorem signatures1 : (List.range' 16 16).map beginning = table1 := by decide +kernel

def table2 : List Str := [
    [8, 129, 48], [136, 183, 245], [160, 44, 217], [43, 223, 26],
    [97, 29, 26], [9, 16, 33], [105, 136, 48], [140, 84, 36],
    [168, 103, 114], [121, 255, 17], [169, 185, 141], [225, 103, 70],
    [53, 187, 31], [203, 185, 127], [231, 151, 129], [233, 1, 205]]

theorem signatures2 : (List.range' 32 16).map beginning = table2 := by decide +kernel

def table3 : List Str := [
    [8, 156, 56], [109, 169, 31], [174, 123, 62], [102, 134, 224],
    [181, 10, 103], [171, 32, 216], [68, 95, 61], [1, 35, 91],
    [166, 122, 139], [52, 115, 98], [157, 154, 73], [113, 72, 62],
    [104, 142, 103], [177, 217, 182], [193, 205, 112], [143, 218, 20]]

theorem signatures3 : (List.range' 48 16).map beginning = table3 := by decide +kernel

def table4 : List Str := [
    [121, 64, 4], [177, 210, 8], [38, 130, 132], [105, 132, 182],
    [123, 252, 118], [10, 46, 196], [117, 243, 60], [192, 26, 49],
    [139, 142, 18], [201, 145, 164], [100, 161, 184], [199, 207, 128],
    [87, 17, 137], [231, 20, 147], [175, 188, 114], [56, 236, 75]]

theorem signatures4 : (List.range' 64 16).map beginning = table4 := by decide +kernel

def table5 : List Str := [
    [36, 115, 112], [27, 124, 247], [103, 128, 85], [220, 111, 196],
    [246, 109, 77], [136, 179, 150], [174, 32, 205], [200, 115, 164],
    [88, 208, 43], [123, 72, 161], [126, 200, 112], [15, 31, 51],
    [185, 125, 147], [25, 192, 34], [103, 13, 159], [132, 126, 76]]

theorem signatures5 : (List.range' 80 16).map beginning = table5 := by decide +kernel

def table6 : List Str := [
    [32, 132, 231], [120, 12, 61], [189, 147, 75], [60, 228, 10],
    [215, 227, 43], [199, 229, 12], [38, 139, 40], [138, 150, 141],
    [127, 194, 230], [111, 40, 92], [120, 212, 161], [150, 208, 85],
    [84, 127, 245], [120, 41, 6], [21, 211, 227], [19, 241, 144]]

theorem signatures6 : (List.range' 96 16).map beginning = table6 := by decide +kernel

def table7 : List Str := [
    [22, 186, 255], [234, 14, 223], [64, 170, 224], [45, 80, 121],
    [253, 71, 208], [116, 252, 88], [170, 173, 231], [209, 200, 164],
    [79, 195, 183], [72, 214, 62], [195, 2, 247], [38, 194, 82],
    [125, 164, 206], [174, 69, 105], [70, 153, 33], [158, 119, 158]]

theorem signatures7 : (List.range' 112 16).map beginning = table7 := by decide +kernel

def table8 : List Str := [
    [154, 161, 110], [244, 223, 135], [125, 222, 20], [41, 216, 210],
    [169, 244, 173], [130, 186, 244], [45, 84, 168], [171, 7, 99],
    [214, 138, 63], [18, 39, 51], [59, 105, 115], [252, 251, 57],
    [18, 64, 90], [16, 241, 247], [129, 249, 143], [37, 161, 186]]

theorem signatures8 : (List.range' 128 16).map beginning = table8 := by decide +kernel

def table9 : List Str := [
    [30, 39, 177], [190, 155, 124], [75, 234, 110], [75, 220, 133],
    [141, 186, 85], [98, 212, 207], [8, 169, 254], [114, 120, 140],
    [142, 92, 82], [218, 66, 228], [12, 146, 56], [119, 112, 189],
    [115, 231, 163], [143, 37, 168], [118, 248, 31], [176, 177, 46]]

theorem signatures9 : (List.range' 144 16).map beginning = table9 := by decide +kernel

def table10 : List Str := [
    [148, 107, 22], [159, 132, 189], [130, 154, 48], [195, 54, 9],
    [188, 212, 85], [44, 170, 93], [78, 222, 9], [81, 37, 199],
    [39, 35, 164], [154, 226, 56], [219, 1, 172], [229, 113, 161],
    [133, 206, 83], [171, 102, 18], [42, 187, 104], [82, 182, 103]]

theorem signatures10 : (List.range' 160 16).map beginning = table10 := by decide +kernel

def table11 : List Str := [
    [83, 190, 147], [173, 72, 232], [46, 252, 28], [87, 96, 161],
    [17, 244, 117], [154, 195, 241], [134, 202, 194], [150, 112, 64],
    [98, 68, 212], [185, 171, 23], [217, 137, 78], [38, 159, 204],
    [218, 235, 54], [161, 210, 171], [133, 144, 253], [66, 215, 114]]

theorem signatures11 : (List.range' 176 16).map beginning = table11 := by decide +kernel

def table12 : List Str := [
    [14, 159, 67], [206, 181, 63], [110, 248, 167], [21, 96, 36],
    [203, 33, 102], [49, 211, 0], [19, 226, 180], [193, 170, 131],
    [233, 100, 218], [240, 92, 80], [217, 21, 183], [134, 28, 16],
    [6, 60, 200], [130, 218, 255], [111, 121, 187], [173, 81, 133]]

theorem signatures12 : (List.range' 192 16).map beginning = table12 := by decide +kernel

def table13 : List Str := [
    [164, 96, 49], [46, 235, 36], [232, 36, 126], [200, 112, 89],
    [39, 26, 222], [72, 213, 152], [99, 50, 231], [201, 251, 10],
    [194, 9, 240], [52, 119, 135], [160, 67, 89], [231, 114, 92],
    [87, 62, 66], [40, 170, 83], [22, 1, 27], [86, 132, 148]]

theorem signatures13 : (List.range' 208 16).map beginning = table13 := by decide +kernel

def table14 : List Str := [
    [12, 205, 238], [19, 240, 110], [45, 41, 61], [247, 85, 135],
    [194, 52, 132], [213, 90, 96], [126, 219, 137], [133, 155, 225],
    [64, 73, 85], [78, 110, 8], [57, 92, 74], [8, 67, 40],
    [189, 148, 202], [43, 124, 197], [165, 132, 133], [200, 116, 111]]

theorem signatures14 : (List.range' 224 16).map beginning = table14 := by decide +kernel

def table15 : List Str := [
    [133, 248, 46], [151, 231, 0], [108, 222, 92], [68, 241, 248],
    [221, 111, 77], [142, 76, 12], [253, 76, 129], [73, 73, 94],
    [179, 184, 247], [132, 246, 249], [224, 158, 214], [33, 10, 131],
    [157, 73, 13], [140, 1, 5], [61, 51, 161], [182, 102, 213]]

theorem signatures15 : (List.range' 240 16).map beginning = table15 := by decide +kernel

/-- All of them. -/
def tables : List Str :=
  table0 ++ table1 ++ table2 ++ table3 ++ table4 ++ table5 ++ table6 ++ table7 ++
    table8 ++ table9 ++ table10 ++ table11 ++ table12 ++ table13 ++ table14 ++ table15

theorem beginnings : (List.range' 0 256).map beginning = tables := by
  have e : List.range' 0 256 = List.range' 0 16 ++ List.range' 16 16 ++ List.range' 32 16 ++ List.range' 48 16 ++ List.range' 64 16 ++ List.range' 80 16 ++ List.range' 96 16 ++ List.range' 112 16 ++ List.range' 128 16 ++ List.range' 144 16 ++ List.range' 160 16 ++ List.range' 176 16 ++ List.range' 192 16 ++ List.range' 208 16 ++ List.range' 224 16 ++ List.range' 240 16 := by
    decide +kernel
  rw [e]
  simp only [List.map_append, signatures0, signatures1, signatures2, signatures3, signatures4, signatures5, signatures6, signatures7, signatures8, signatures9, signatures10, signatures11, signatures12, signatures13, signatures14, signatures15, tables]

theorem tables_nodup : tables.Nodup := by decide +kernel

theorem beginning_injective {i j : Nat} (hi : i < 256) (hj : j < 256) (h : beginning i = beginning j) :
    i = j := by
  have hn := tables_nodup
  rw [← beginnings] at hn
  have := List.pairwise_iff_getElem.mp hn
  rcases Nat.lt_trichotomy i j with hl | rfl | hl
  · exact absurd (by rw [List.getElem_map, List.getElem_map]; simp [h]) (this i j (by simpa using hi) (by simpa using hj) hl)
  · rfl
  · exact absurd (by rw [List.getElem_map, List.getElem_map]; simp [h]) (this j i (by simpa using hj) (by simpa using hi) hl)

end OAuth2
