import Verif.Lemmas.Unisolvent
import Verif.Model.ShippedRules.Tri
import Verif.Model.ShippedRules.Tet
/-! # Polynomials that vanish at the points of the canonical rules of triangles and tetrahedra

The combinations are approximate inverses of the matrices of monomials at the points; the kernel evaluates the check. -/
set_option autoImplicit false

namespace Fenris.ShippedRules

theorem separates_tri1 : separates 2 0 tri1 [
  [1]] = true := by decide +kernel

theorem separates_tri2 : separates 2 1 tri2 [
  [7, 7, -3],
  [10, 0, -10],
  [0, 10, -10]] = true := by decide +kernel

theorem separates_tri4 : separates 2 2 tri4 [
  [-7, -7, 27, 1, 1, 4],
  [-32, -40, 36, 17, -1, 21],
  [2, -40, 2, 19, -1, 19],
  [-40, -32, 36, -1, 17, 21],
  [-40, -40, 44, -1, -1, 38],
  [-40, 2, 2, -1, 19, 19]] = true := by decide +kernel

theorem separates_tet1 : separates 3 0 tet1 [
  [1]] = true := by decide +kernel

theorem separates_tet2 : separates 3 1 tet2 [
  [8, 8, 8, -14],
  [11, 0, 0, -11],
  [0, 11, 0, -11],
  [0, 0, 11, -11]] = true := by decide +kernel

theorem separates_tet5 : separates 3 2 tet5 [
  [-31, -31, -31, 34, 3, 3, 3, 69, 36, 36, -32, -32, -32, 36],
  [-40, -51, -51, 25, 32, -5, -5, 98, 48, 48, -71, -19, -19, 10],
  [-4, -26, -26, -4, 32, -2, -2, 32, 7, 7, -35, 7, 7, 5],
  [-51, -40, -51, 25, -5, 32, -5, 98, 48, 10, -19, -71, -19, 48],
  [-26, -26, -26, 18, -2, -2, -2, 67, 50, 5, -35, -35, 10, 5],
  [-26, -4, -26, -4, -2, 32, -2, 32, 7, 5, 7, -35, 7, 7],
  [-51, -51, -40, 25, -5, -5, 32, 98, 10, 48, -19, -19, -71, 48],
  [-26, -26, -26, 18, -2, -2, -2, 67, 5, 50, -35, 10, -35, 5],
  [-26, -26, -26, 18, -2, -2, -2, 67, 5, 5, 10, -35, -35, 50],
  [-26, -26, -4, -4, -2, -2, 32, 32, 5, 7, 7, 7, -35, 7]] = true := by decide +kernel

theorem separates_tet6 : separates 3 3 tet6 [
  [-13, -13, -13, -346, -264, -264, -264, 713, -243, -243, -243, -232, 76, -52, -52, 76, 76, -52, 76, 409, 409, 76, 409, 76],
  [-4, -10, -10, -686, 16, -602, -602, 1013, -532, -426, -426, -356, 105, 26, -437, -92, 344, 26, 344, 550, 1197, 105, 550, -92],
  [88, -5, -5, -433, 243, -301, -301, 272, -346, -213, -213, -98, -4, 69, -690, -46, 319, 69, 319, 128, 1070, -4, 128, -46],
  [87, 0, 0, -87, -5, 0, 0, 5, -41, 0, 0, 41, -12, 12, -293, 0, 32, 12, 32, -32, 293, -12, -32, 0],
  [-10, -4, -10, -686, -602, 16, -602, 1013, -426, -532, -426, -356, -92, 26, 26, 344, 105, -437, -92, 1197, 550, 344, 550, 105],
  [-20, -20, -5, -877, -10, -10, -1257, 1135, -593, -593, -330, -364, -83, 148, -215, -122, 454, -215, -122, 1252, 1252, 454, 226, -83],
  [-8, -8, 0, -269, 145, 145, -478, 160, -190, -190, -59, -66, -18, 18, -276, -38, 363, 62, -38, 267, 604, 25, -134, -18],
  [-5, 88, -5, -433, -301, 243, -301, 272, -213, -346, -213, -98, -46, 69, 69, 319, -4, -690, -46, 1070, 128, 319, 128, -4],
  [-8, -8, 0, -269, 145, 145, -478, 160, -190, -190, -59, -66, -18, 18, 62, -38, 25, -276, -38, 604, 267, 363, -134, -18],
  [0, 87, 0, -87, 0, -5, 0, 5, 0, -41, 0, 41, 0, 12, 12, 32, -12, -293, 0, 293, -32, 32, -32, -12],
  [-10, -10, -4, -686, -602, -602, 16, 1013, -426, -426, -532, -356, 344, -437, 26, 105, -92, 26, 105, 550, 550, -92, 1197, 344],
  [-20, -5, -20, -877, -10, -1257, -10, 1135, -593, -330, -593, -364, 454, -215, -215, -83, -122, 148, 454, 226, 1252, -83, 1252, -122],
  [-8, 0, -8, -269, 145, -478, 145, 160, -190, -59, -190, -66, 25, 62, -276, -18, -38, 18, 363, -134, 604, -18, 267, -38],
  [-5, -20, -20, -877, -1257, -10, -10, 1135, -330, -593, -593, -364, -122, -215, 148, 454, -83, -215, -83, 1252, 226, -122, 1252, 454],
  [-8, -8, -8, -545, -333, -333, -333, 944, -249, -249, -249, -263, -56, 143, 143, -56, -56, 143, -56, 514, 514, -56, 514, -56],
  [0, -8, -8, -269, -478, 145, 145, 160, -59, -190, -190, -66, -38, 62, 18, 363, -18, -276, -18, 604, -134, -38, 267, 25],
  [-5, -5, 88, -433, -301, -301, 243, 272, -213, -213, -346, -98, 319, -690, 69, -4, -46, 69, -4, 128, 128, -46, 1070, 319],
  [-8, 0, -8, -269, 145, -478, 145, 160, -190, -59, -190, -66, 363, -276, 62, -18, -38, 18, 25, -134, 267, -18, 604, -38],
  [0, -8, -8, -269, -478, 145, 145, 160, -59, -190, -190, -66, -38, -276, 18, 25, -18, 62, -18, 267, -134, -38, 604, 363],
  [0, 0, 87, -87, 0, 0, -5, 5, 0, 0, -41, 41, 32, -293, 12, -12, 0, 12, -12, -32, -32, 0, 293, 32]] = true := by decide +kernel

end Fenris.ShippedRules
