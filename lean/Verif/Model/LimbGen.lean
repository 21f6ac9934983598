import Verif.Model.Limb
/-
Generated by tools/go2lean.py from ecc/edwards25519/edwards25519.go; one assignment per Go statement, the number in
each comment is the source line.
-/
namespace Verif.Limb

/-- ecc/edwards25519/edwards25519.go:27-38 `FeAdd`. `a` is 0-9, `b` 10-19, `dst` 20-29. -/
def feAddP : Prog := [
  (20, (.add .w32 (.v 0) (.v 10))), -- 28: dst[0] = a[0] + b[0]
  (21, (.add .w32 (.v 1) (.v 11))), -- 29: dst[1] = a[1] + b[1]
  (22, (.add .w32 (.v 2) (.v 12))), -- 30: dst[2] = a[2] + b[2]
  (23, (.add .w32 (.v 3) (.v 13))), -- 31: dst[3] = a[3] + b[3]
  (24, (.add .w32 (.v 4) (.v 14))), -- 32: dst[4] = a[4] + b[4]
  (25, (.add .w32 (.v 5) (.v 15))), -- 33: dst[5] = a[5] + b[5]
  (26, (.add .w32 (.v 6) (.v 16))), -- 34: dst[6] = a[6] + b[6]
  (27, (.add .w32 (.v 7) (.v 17))), -- 35: dst[7] = a[7] + b[7]
  (28, (.add .w32 (.v 8) (.v 18))), -- 36: dst[8] = a[8] + b[8]
  (29, (.add .w32 (.v 9) (.v 19))) -- 37: dst[9] = a[9] + b[9]
]

/-- ecc/edwards25519/edwards25519.go:40-51 `FeSub`. `a` is 0-9, `b` 10-19, `dst` 20-29. -/
def feSubP : Prog := [
  (20, (.sub .w32 (.v 0) (.v 10))), -- 41: dst[0] = a[0] - b[0]
  (21, (.sub .w32 (.v 1) (.v 11))), -- 42: dst[1] = a[1] - b[1]
  (22, (.sub .w32 (.v 2) (.v 12))), -- 43: dst[2] = a[2] - b[2]
  (23, (.sub .w32 (.v 3) (.v 13))), -- 44: dst[3] = a[3] - b[3]
  (24, (.sub .w32 (.v 4) (.v 14))), -- 45: dst[4] = a[4] - b[4]
  (25, (.sub .w32 (.v 5) (.v 15))), -- 46: dst[5] = a[5] - b[5]
  (26, (.sub .w32 (.v 6) (.v 16))), -- 47: dst[6] = a[6] - b[6]
  (27, (.sub .w32 (.v 7) (.v 17))), -- 48: dst[7] = a[7] - b[7]
  (28, (.sub .w32 (.v 8) (.v 18))), -- 49: dst[8] = a[8] - b[8]
  (29, (.sub .w32 (.v 9) (.v 19))) -- 50: dst[9] = a[9] - b[9]
]

/-- ecc/edwards25519/edwards25519.go:245-256 `FeNeg`. `f` is 0-9, `h` 20-29. -/
def feNegP : Prog := [
  (20, (.neg .w32 (.v 0))), -- 246: h[0] = -f[0]
  (21, (.neg .w32 (.v 1))), -- 247: h[1] = -f[1]
  (22, (.neg .w32 (.v 2))), -- 248: h[2] = -f[2]
  (23, (.neg .w32 (.v 3))), -- 249: h[3] = -f[3]
  (24, (.neg .w32 (.v 4))), -- 250: h[4] = -f[4]
  (25, (.neg .w32 (.v 5))), -- 251: h[5] = -f[5]
  (26, (.neg .w32 (.v 6))), -- 252: h[6] = -f[6]
  (27, (.neg .w32 (.v 7))), -- 253: h[7] = -f[7]
  (28, (.neg .w32 (.v 8))), -- 254: h[8] = -f[8]
  (29, (.neg .w32 (.v 9))) -- 255: h[9] = -f[9]
]

/-- ecc/edwards25519/edwards25519.go:258-345 `FeCombine`. The parameters `h0`-`h9` are 40-49, `h` is 20-29. -/
def feCombineP : Prog := [
  (50, (.shr (.add .w64 (.v 40) (.k 33554432)) 26)), -- 268: c0 = (h0 + (1 << 25)) >> 26
  (41, (.add .w64 (.v 41) (.v 50))), -- 269: h1 += c0
  (40, (.sub .w64 (.v 40) (.shl .w64 (.v 50) 26))), -- 270: h0 -= c0 << 26
  (51, (.shr (.add .w64 (.v 44) (.k 33554432)) 26)), -- 271: c4 = (h4 + (1 << 25)) >> 26
  (45, (.add .w64 (.v 45) (.v 51))), -- 272: h5 += c4
  (44, (.sub .w64 (.v 44) (.shl .w64 (.v 51) 26))), -- 273: h4 -= c4 << 26
  (52, (.shr (.add .w64 (.v 41) (.k 16777216)) 25)), -- 279: c1 = (h1 + (1 << 24)) >> 25
  (42, (.add .w64 (.v 42) (.v 52))), -- 280: h2 += c1
  (41, (.sub .w64 (.v 41) (.shl .w64 (.v 52) 25))), -- 281: h1 -= c1 << 25
  (53, (.shr (.add .w64 (.v 45) (.k 16777216)) 25)), -- 282: c5 = (h5 + (1 << 24)) >> 25
  (46, (.add .w64 (.v 46) (.v 53))), -- 283: h6 += c5
  (45, (.sub .w64 (.v 45) (.shl .w64 (.v 53) 25))), -- 284: h5 -= c5 << 25
  (54, (.shr (.add .w64 (.v 42) (.k 33554432)) 26)), -- 290: c2 = (h2 + (1 << 25)) >> 26
  (43, (.add .w64 (.v 43) (.v 54))), -- 291: h3 += c2
  (42, (.sub .w64 (.v 42) (.shl .w64 (.v 54) 26))), -- 292: h2 -= c2 << 26
  (55, (.shr (.add .w64 (.v 46) (.k 33554432)) 26)), -- 293: c6 = (h6 + (1 << 25)) >> 26
  (47, (.add .w64 (.v 47) (.v 55))), -- 294: h7 += c6
  (46, (.sub .w64 (.v 46) (.shl .w64 (.v 55) 26))), -- 295: h6 -= c6 << 26
  (56, (.shr (.add .w64 (.v 43) (.k 16777216)) 25)), -- 301: c3 = (h3 + (1 << 24)) >> 25
  (44, (.add .w64 (.v 44) (.v 56))), -- 302: h4 += c3
  (43, (.sub .w64 (.v 43) (.shl .w64 (.v 56) 25))), -- 303: h3 -= c3 << 25
  (57, (.shr (.add .w64 (.v 47) (.k 16777216)) 25)), -- 304: c7 = (h7 + (1 << 24)) >> 25
  (48, (.add .w64 (.v 48) (.v 57))), -- 305: h8 += c7
  (47, (.sub .w64 (.v 47) (.shl .w64 (.v 57) 25))), -- 306: h7 -= c7 << 25
  (51, (.shr (.add .w64 (.v 44) (.k 33554432)) 26)), -- 312: c4 = (h4 + (1 << 25)) >> 26
  (45, (.add .w64 (.v 45) (.v 51))), -- 313: h5 += c4
  (44, (.sub .w64 (.v 44) (.shl .w64 (.v 51) 26))), -- 314: h4 -= c4 << 26
  (58, (.shr (.add .w64 (.v 48) (.k 33554432)) 26)), -- 315: c8 = (h8 + (1 << 25)) >> 26
  (49, (.add .w64 (.v 49) (.v 58))), -- 316: h9 += c8
  (48, (.sub .w64 (.v 48) (.shl .w64 (.v 58) 26))), -- 317: h8 -= c8 << 26
  (59, (.shr (.add .w64 (.v 49) (.k 16777216)) 25)), -- 323: c9 = (h9 + (1 << 24)) >> 25
  (40, (.add .w64 (.v 40) (.mul .w64 (.v 59) (.k 19)))), -- 324: h0 += c9 * 19
  (49, (.sub .w64 (.v 49) (.shl .w64 (.v 59) 25))), -- 325: h9 -= c9 << 25
  (50, (.shr (.add .w64 (.v 40) (.k 33554432)) 26)), -- 329: c0 = (h0 + (1 << 25)) >> 26
  (41, (.add .w64 (.v 41) (.v 50))), -- 330: h1 += c0
  (40, (.sub .w64 (.v 40) (.shl .w64 (.v 50) 26))), -- 331: h0 -= c0 << 26
  (20, (.cast .w32 (.v 40))), -- 335: h[0] = int32(h0)
  (21, (.cast .w32 (.v 41))), -- 336: h[1] = int32(h1)
  (22, (.cast .w32 (.v 42))), -- 337: h[2] = int32(h2)
  (23, (.cast .w32 (.v 43))), -- 338: h[3] = int32(h3)
  (24, (.cast .w32 (.v 44))), -- 339: h[4] = int32(h4)
  (25, (.cast .w32 (.v 45))), -- 340: h[5] = int32(h5)
  (26, (.cast .w32 (.v 46))), -- 341: h[6] = int32(h6)
  (27, (.cast .w32 (.v 47))), -- 342: h[7] = int32(h7)
  (28, (.cast .w32 (.v 48))), -- 343: h[8] = int32(h8)
  (29, (.cast .w32 (.v 49))) -- 344: h[9] = int32(h9)
]

/-- ecc/edwards25519/edwards25519.go:374-425 `FeMul` up to the call of `FeCombine`. `f` is 0-9, `g` 10-19, `h0`-`h9` are 40-49. -/
def feMulP : Prog := [
  (50, (.cast .w64 (.v 0))), -- 375: f0 := int64(f[0])
  (51, (.cast .w64 (.v 1))), -- 376: f1 := int64(f[1])
  (52, (.cast .w64 (.v 2))), -- 377: f2 := int64(f[2])
  (53, (.cast .w64 (.v 3))), -- 378: f3 := int64(f[3])
  (54, (.cast .w64 (.v 4))), -- 379: f4 := int64(f[4])
  (55, (.cast .w64 (.v 5))), -- 380: f5 := int64(f[5])
  (56, (.cast .w64 (.v 6))), -- 381: f6 := int64(f[6])
  (57, (.cast .w64 (.v 7))), -- 382: f7 := int64(f[7])
  (58, (.cast .w64 (.v 8))), -- 383: f8 := int64(f[8])
  (59, (.cast .w64 (.v 9))), -- 384: f9 := int64(f[9])
  (60, (.cast .w64 (.mul .w32 (.k 2) (.v 1)))), -- 386: f1_2 := int64(2 * f[1])
  (61, (.cast .w64 (.mul .w32 (.k 2) (.v 3)))), -- 387: f3_2 := int64(2 * f[3])
  (62, (.cast .w64 (.mul .w32 (.k 2) (.v 5)))), -- 388: f5_2 := int64(2 * f[5])
  (63, (.cast .w64 (.mul .w32 (.k 2) (.v 7)))), -- 389: f7_2 := int64(2 * f[7])
  (64, (.cast .w64 (.mul .w32 (.k 2) (.v 9)))), -- 390: f9_2 := int64(2 * f[9])
  (65, (.cast .w64 (.v 10))), -- 392: g0 := int64(g[0])
  (66, (.cast .w64 (.v 11))), -- 393: g1 := int64(g[1])
  (67, (.cast .w64 (.v 12))), -- 394: g2 := int64(g[2])
  (68, (.cast .w64 (.v 13))), -- 395: g3 := int64(g[3])
  (69, (.cast .w64 (.v 14))), -- 396: g4 := int64(g[4])
  (70, (.cast .w64 (.v 15))), -- 397: g5 := int64(g[5])
  (71, (.cast .w64 (.v 16))), -- 398: g6 := int64(g[6])
  (72, (.cast .w64 (.v 17))), -- 399: g7 := int64(g[7])
  (73, (.cast .w64 (.v 18))), -- 400: g8 := int64(g[8])
  (74, (.cast .w64 (.v 19))), -- 401: g9 := int64(g[9])
  (75, (.cast .w64 (.mul .w32 (.k 19) (.v 11)))), -- 403: g1_19 := int64(19 * g[1])
  (76, (.cast .w64 (.mul .w32 (.k 19) (.v 12)))), -- 404: g2_19 := int64(19 * g[2])
  (77, (.cast .w64 (.mul .w32 (.k 19) (.v 13)))), -- 405: g3_19 := int64(19 * g[3])
  (78, (.cast .w64 (.mul .w32 (.k 19) (.v 14)))), -- 406: g4_19 := int64(19 * g[4])
  (79, (.cast .w64 (.mul .w32 (.k 19) (.v 15)))), -- 407: g5_19 := int64(19 * g[5])
  (80, (.cast .w64 (.mul .w32 (.k 19) (.v 16)))), -- 408: g6_19 := int64(19 * g[6])
  (81, (.cast .w64 (.mul .w32 (.k 19) (.v 17)))), -- 409: g7_19 := int64(19 * g[7])
  (82, (.cast .w64 (.mul .w32 (.k 19) (.v 18)))), -- 410: g8_19 := int64(19 * g[8])
  (83, (.cast .w64 (.mul .w32 (.k 19) (.v 19)))), -- 411: g9_19 := int64(19 * g[9])
  (40, (.add .w64 (.add .w64 (.add .w64 (.add .w64 (.add .w64 (.add .w64 (.add .w64 (.add .w64 (.add .w64 (.mul .w64 (.v 50) (.v 65)) (.mul .w64 (.v 60) (.v 83))) (.mul .w64 (.v 52) (.v 82))) (.mul .w64 (.v 61) (.v 81))) (.mul .w64 (.v 54) (.v 80))) (.mul .w64 (.v 62) (.v 79))) (.mul .w64 (.v 56) (.v 78))) (.mul .w64 (.v 63) (.v 77))) (.mul .w64 (.v 58) (.v 76))) (.mul .w64 (.v 64) (.v 75)))), -- 413: h0 := f0*g0 + f1_2*g9_19 + f2*g8_19 + f3_2*g7_19 + f4*g6_19 + f5_2*g5_19 + f6*g4_19 + f7_2*g3_19 + f8*g2_19 + f9_2*g1_19
  (41, (.add .w64 (.add .w64 (.add .w64 (.add .w64 (.add .w64 (.add .w64 (.add .w64 (.add .w64 (.add .w64 (.mul .w64 (.v 50) (.v 66)) (.mul .w64 (.v 51) (.v 65))) (.mul .w64 (.v 52) (.v 83))) (.mul .w64 (.v 53) (.v 82))) (.mul .w64 (.v 54) (.v 81))) (.mul .w64 (.v 55) (.v 80))) (.mul .w64 (.v 56) (.v 79))) (.mul .w64 (.v 57) (.v 78))) (.mul .w64 (.v 58) (.v 77))) (.mul .w64 (.v 59) (.v 76)))), -- 414: h1 := f0*g1 + f1*g0 + f2*g9_19 + f3*g8_19 + f4*g7_19 + f5*g6_19 + f6*g5_19 + f7*g4_19 + f8*g3_19 + f9*g2_19
  (42, (.add .w64 (.add .w64 (.add .w64 (.add .w64 (.add .w64 (.add .w64 (.add .w64 (.add .w64 (.add .w64 (.mul .w64 (.v 50) (.v 67)) (.mul .w64 (.v 60) (.v 66))) (.mul .w64 (.v 52) (.v 65))) (.mul .w64 (.v 61) (.v 83))) (.mul .w64 (.v 54) (.v 82))) (.mul .w64 (.v 62) (.v 81))) (.mul .w64 (.v 56) (.v 80))) (.mul .w64 (.v 63) (.v 79))) (.mul .w64 (.v 58) (.v 78))) (.mul .w64 (.v 64) (.v 77)))), -- 415: h2 := f0*g2 + f1_2*g1 + f2*g0 + f3_2*g9_19 + f4*g8_19 + f5_2*g7_19 + f6*g6_19 + f7_2*g5_19 + f8*g4_19 + f9_2*g3_19
  (43, (.add .w64 (.add .w64 (.add .w64 (.add .w64 (.add .w64 (.add .w64 (.add .w64 (.add .w64 (.add .w64 (.mul .w64 (.v 50) (.v 68)) (.mul .w64 (.v 51) (.v 67))) (.mul .w64 (.v 52) (.v 66))) (.mul .w64 (.v 53) (.v 65))) (.mul .w64 (.v 54) (.v 83))) (.mul .w64 (.v 55) (.v 82))) (.mul .w64 (.v 56) (.v 81))) (.mul .w64 (.v 57) (.v 80))) (.mul .w64 (.v 58) (.v 79))) (.mul .w64 (.v 59) (.v 78)))), -- 416: h3 := f0*g3 + f1*g2 + f2*g1 + f3*g0 + f4*g9_19 + f5*g8_19 + f6*g7_19 + f7*g6_19 + f8*g5_19 + f9*g4_19
  (44, (.add .w64 (.add .w64 (.add .w64 (.add .w64 (.add .w64 (.add .w64 (.add .w64 (.add .w64 (.add .w64 (.mul .w64 (.v 50) (.v 69)) (.mul .w64 (.v 60) (.v 68))) (.mul .w64 (.v 52) (.v 67))) (.mul .w64 (.v 61) (.v 66))) (.mul .w64 (.v 54) (.v 65))) (.mul .w64 (.v 62) (.v 83))) (.mul .w64 (.v 56) (.v 82))) (.mul .w64 (.v 63) (.v 81))) (.mul .w64 (.v 58) (.v 80))) (.mul .w64 (.v 64) (.v 79)))), -- 417: h4 := f0*g4 + f1_2*g3 + f2*g2 + f3_2*g1 + f4*g0 + f5_2*g9_19 + f6*g8_19 + f7_2*g7_19 + f8*g6_19 + f9_2*g5_19
  (45, (.add .w64 (.add .w64 (.add .w64 (.add .w64 (.add .w64 (.add .w64 (.add .w64 (.add .w64 (.add .w64 (.mul .w64 (.v 50) (.v 70)) (.mul .w64 (.v 51) (.v 69))) (.mul .w64 (.v 52) (.v 68))) (.mul .w64 (.v 53) (.v 67))) (.mul .w64 (.v 54) (.v 66))) (.mul .w64 (.v 55) (.v 65))) (.mul .w64 (.v 56) (.v 83))) (.mul .w64 (.v 57) (.v 82))) (.mul .w64 (.v 58) (.v 81))) (.mul .w64 (.v 59) (.v 80)))), -- 418: h5 := f0*g5 + f1*g4 + f2*g3 + f3*g2 + f4*g1 + f5*g0 + f6*g9_19 + f7*g8_19 + f8*g7_19 + f9*g6_19
  (46, (.add .w64 (.add .w64 (.add .w64 (.add .w64 (.add .w64 (.add .w64 (.add .w64 (.add .w64 (.add .w64 (.mul .w64 (.v 50) (.v 71)) (.mul .w64 (.v 60) (.v 70))) (.mul .w64 (.v 52) (.v 69))) (.mul .w64 (.v 61) (.v 68))) (.mul .w64 (.v 54) (.v 67))) (.mul .w64 (.v 62) (.v 66))) (.mul .w64 (.v 56) (.v 65))) (.mul .w64 (.v 63) (.v 83))) (.mul .w64 (.v 58) (.v 82))) (.mul .w64 (.v 64) (.v 81)))), -- 419: h6 := f0*g6 + f1_2*g5 + f2*g4 + f3_2*g3 + f4*g2 + f5_2*g1 + f6*g0 + f7_2*g9_19 + f8*g8_19 + f9_2*g7_19
  (47, (.add .w64 (.add .w64 (.add .w64 (.add .w64 (.add .w64 (.add .w64 (.add .w64 (.add .w64 (.add .w64 (.mul .w64 (.v 50) (.v 72)) (.mul .w64 (.v 51) (.v 71))) (.mul .w64 (.v 52) (.v 70))) (.mul .w64 (.v 53) (.v 69))) (.mul .w64 (.v 54) (.v 68))) (.mul .w64 (.v 55) (.v 67))) (.mul .w64 (.v 56) (.v 66))) (.mul .w64 (.v 57) (.v 65))) (.mul .w64 (.v 58) (.v 83))) (.mul .w64 (.v 59) (.v 82)))), -- 420: h7 := f0*g7 + f1*g6 + f2*g5 + f3*g4 + f4*g3 + f5*g2 + f6*g1 + f7*g0 + f8*g9_19 + f9*g8_19
  (48, (.add .w64 (.add .w64 (.add .w64 (.add .w64 (.add .w64 (.add .w64 (.add .w64 (.add .w64 (.add .w64 (.mul .w64 (.v 50) (.v 73)) (.mul .w64 (.v 60) (.v 72))) (.mul .w64 (.v 52) (.v 71))) (.mul .w64 (.v 61) (.v 70))) (.mul .w64 (.v 54) (.v 69))) (.mul .w64 (.v 62) (.v 68))) (.mul .w64 (.v 56) (.v 67))) (.mul .w64 (.v 63) (.v 66))) (.mul .w64 (.v 58) (.v 65))) (.mul .w64 (.v 64) (.v 83)))), -- 421: h8 := f0*g8 + f1_2*g7 + f2*g6 + f3_2*g5 + f4*g4 + f5_2*g3 + f6*g2 + f7_2*g1 + f8*g0 + f9_2*g9_19
  (49, (.add .w64 (.add .w64 (.add .w64 (.add .w64 (.add .w64 (.add .w64 (.add .w64 (.add .w64 (.add .w64 (.mul .w64 (.v 50) (.v 74)) (.mul .w64 (.v 51) (.v 73))) (.mul .w64 (.v 52) (.v 72))) (.mul .w64 (.v 53) (.v 71))) (.mul .w64 (.v 54) (.v 70))) (.mul .w64 (.v 55) (.v 69))) (.mul .w64 (.v 56) (.v 68))) (.mul .w64 (.v 57) (.v 67))) (.mul .w64 (.v 58) (.v 66))) (.mul .w64 (.v 59) (.v 65)))) -- 422: h9 := f0*g9 + f1*g8 + f2*g7 + f3*g6 + f4*g5 + f5*g4 + f6*g3 + f7*g2 + f8*g1 + f9*g0
]

/-- ecc/edwards25519/edwards25519.go:427-464 `feSquare`. `f` is 0-9, `h0`-`h9` are 40-49. -/
def feSquareP : Prog := [
  (50, (.cast .w64 (.v 0))), -- 428: f0 := int64(f[0])
  (51, (.cast .w64 (.v 1))), -- 429: f1 := int64(f[1])
  (52, (.cast .w64 (.v 2))), -- 430: f2 := int64(f[2])
  (53, (.cast .w64 (.v 3))), -- 431: f3 := int64(f[3])
  (54, (.cast .w64 (.v 4))), -- 432: f4 := int64(f[4])
  (55, (.cast .w64 (.v 5))), -- 433: f5 := int64(f[5])
  (56, (.cast .w64 (.v 6))), -- 434: f6 := int64(f[6])
  (57, (.cast .w64 (.v 7))), -- 435: f7 := int64(f[7])
  (58, (.cast .w64 (.v 8))), -- 436: f8 := int64(f[8])
  (59, (.cast .w64 (.v 9))), -- 437: f9 := int64(f[9])
  (60, (.cast .w64 (.mul .w32 (.k 2) (.v 0)))), -- 438: f0_2 := int64(2 * f[0])
  (61, (.cast .w64 (.mul .w32 (.k 2) (.v 1)))), -- 439: f1_2 := int64(2 * f[1])
  (62, (.cast .w64 (.mul .w32 (.k 2) (.v 2)))), -- 440: f2_2 := int64(2 * f[2])
  (63, (.cast .w64 (.mul .w32 (.k 2) (.v 3)))), -- 441: f3_2 := int64(2 * f[3])
  (64, (.cast .w64 (.mul .w32 (.k 2) (.v 4)))), -- 442: f4_2 := int64(2 * f[4])
  (65, (.cast .w64 (.mul .w32 (.k 2) (.v 5)))), -- 443: f5_2 := int64(2 * f[5])
  (66, (.cast .w64 (.mul .w32 (.k 2) (.v 6)))), -- 444: f6_2 := int64(2 * f[6])
  (67, (.cast .w64 (.mul .w32 (.k 2) (.v 7)))), -- 445: f7_2 := int64(2 * f[7])
  (68, (.mul .w64 (.k 38) (.v 55))), -- 446: f5_38 := 38 * f5
  (69, (.mul .w64 (.k 19) (.v 56))), -- 447: f6_19 := 19 * f6
  (70, (.mul .w64 (.k 38) (.v 57))), -- 448: f7_38 := 38 * f7
  (71, (.mul .w64 (.k 19) (.v 58))), -- 449: f8_19 := 19 * f8
  (72, (.mul .w64 (.k 38) (.v 59))), -- 450: f9_38 := 38 * f9
  (40, (.add .w64 (.add .w64 (.add .w64 (.add .w64 (.add .w64 (.mul .w64 (.v 50) (.v 50)) (.mul .w64 (.v 61) (.v 72))) (.mul .w64 (.v 62) (.v 71))) (.mul .w64 (.v 63) (.v 70))) (.mul .w64 (.v 64) (.v 69))) (.mul .w64 (.v 55) (.v 68)))), -- 452: h0 = f0*f0 + f1_2*f9_38 + f2_2*f8_19 + f3_2*f7_38 + f4_2*f6_19 + f5*f5_38
  (41, (.add .w64 (.add .w64 (.add .w64 (.add .w64 (.mul .w64 (.v 60) (.v 51)) (.mul .w64 (.v 52) (.v 72))) (.mul .w64 (.v 63) (.v 71))) (.mul .w64 (.v 54) (.v 70))) (.mul .w64 (.v 65) (.v 69)))), -- 453: h1 = f0_2*f1 + f2*f9_38 + f3_2*f8_19 + f4*f7_38 + f5_2*f6_19
  (42, (.add .w64 (.add .w64 (.add .w64 (.add .w64 (.add .w64 (.mul .w64 (.v 60) (.v 52)) (.mul .w64 (.v 61) (.v 51))) (.mul .w64 (.v 63) (.v 72))) (.mul .w64 (.v 64) (.v 71))) (.mul .w64 (.v 65) (.v 70))) (.mul .w64 (.v 56) (.v 69)))), -- 454: h2 = f0_2*f2 + f1_2*f1 + f3_2*f9_38 + f4_2*f8_19 + f5_2*f7_38 + f6*f6_19
  (43, (.add .w64 (.add .w64 (.add .w64 (.add .w64 (.mul .w64 (.v 60) (.v 53)) (.mul .w64 (.v 61) (.v 52))) (.mul .w64 (.v 54) (.v 72))) (.mul .w64 (.v 65) (.v 71))) (.mul .w64 (.v 56) (.v 70)))), -- 455: h3 = f0_2*f3 + f1_2*f2 + f4*f9_38 + f5_2*f8_19 + f6*f7_38
  (44, (.add .w64 (.add .w64 (.add .w64 (.add .w64 (.add .w64 (.mul .w64 (.v 60) (.v 54)) (.mul .w64 (.v 61) (.v 63))) (.mul .w64 (.v 52) (.v 52))) (.mul .w64 (.v 65) (.v 72))) (.mul .w64 (.v 66) (.v 71))) (.mul .w64 (.v 57) (.v 70)))), -- 456: h4 = f0_2*f4 + f1_2*f3_2 + f2*f2 + f5_2*f9_38 + f6_2*f8_19 + f7*f7_38
  (45, (.add .w64 (.add .w64 (.add .w64 (.add .w64 (.mul .w64 (.v 60) (.v 55)) (.mul .w64 (.v 61) (.v 54))) (.mul .w64 (.v 62) (.v 53))) (.mul .w64 (.v 56) (.v 72))) (.mul .w64 (.v 67) (.v 71)))), -- 457: h5 = f0_2*f5 + f1_2*f4 + f2_2*f3 + f6*f9_38 + f7_2*f8_19
  (46, (.add .w64 (.add .w64 (.add .w64 (.add .w64 (.add .w64 (.mul .w64 (.v 60) (.v 56)) (.mul .w64 (.v 61) (.v 65))) (.mul .w64 (.v 62) (.v 54))) (.mul .w64 (.v 63) (.v 53))) (.mul .w64 (.v 67) (.v 72))) (.mul .w64 (.v 58) (.v 71)))), -- 458: h6 = f0_2*f6 + f1_2*f5_2 + f2_2*f4 + f3_2*f3 + f7_2*f9_38 + f8*f8_19
  (47, (.add .w64 (.add .w64 (.add .w64 (.add .w64 (.mul .w64 (.v 60) (.v 57)) (.mul .w64 (.v 61) (.v 56))) (.mul .w64 (.v 62) (.v 55))) (.mul .w64 (.v 63) (.v 54))) (.mul .w64 (.v 58) (.v 72)))), -- 459: h7 = f0_2*f7 + f1_2*f6 + f2_2*f5 + f3_2*f4 + f8*f9_38
  (48, (.add .w64 (.add .w64 (.add .w64 (.add .w64 (.add .w64 (.mul .w64 (.v 60) (.v 58)) (.mul .w64 (.v 61) (.v 67))) (.mul .w64 (.v 62) (.v 56))) (.mul .w64 (.v 63) (.v 65))) (.mul .w64 (.v 54) (.v 54))) (.mul .w64 (.v 59) (.v 72)))), -- 460: h8 = f0_2*f8 + f1_2*f7_2 + f2_2*f6 + f3_2*f5_2 + f4*f4 + f9*f9_38
  (49, (.add .w64 (.add .w64 (.add .w64 (.add .w64 (.mul .w64 (.v 60) (.v 59)) (.mul .w64 (.v 61) (.v 58))) (.mul .w64 (.v 62) (.v 57))) (.mul .w64 (.v 63) (.v 56))) (.mul .w64 (.v 64) (.v 55)))) -- 461: h9 = f0_2*f9 + f1_2*f8 + f2_2*f7 + f3_2*f6 + f4_2*f5
]

/-- ecc/edwards25519/edwards25519.go:488-503 `FeSquare2` between the calls of `feSquare` and `FeCombine`. `h0`-`h9` are 40-49. -/
def feDoubleP : Prog := [
  (40, (.add .w64 (.v 40) (.v 40))), -- 491: h0 += h0
  (41, (.add .w64 (.v 41) (.v 41))), -- 492: h1 += h1
  (42, (.add .w64 (.v 42) (.v 42))), -- 493: h2 += h2
  (43, (.add .w64 (.v 43) (.v 43))), -- 494: h3 += h3
  (44, (.add .w64 (.v 44) (.v 44))), -- 495: h4 += h4
  (45, (.add .w64 (.v 45) (.v 45))), -- 496: h5 += h5
  (46, (.add .w64 (.v 46) (.v 46))), -- 497: h6 += h6
  (47, (.add .w64 (.v 47) (.v 47))), -- 498: h7 += h7
  (48, (.add .w64 (.v 48) (.v 48))), -- 499: h8 += h8
  (49, (.add .w64 (.v 49) (.v 49))) -- 500: h9 += h9
]

/-- ecc/edwards25519/edwards25519.go:92-105 `FeFromBytes` up to the call of `FeCombine`, with `load3` (75-81) and `load4` (83-90) inlined. `src` is 0-31, `h0`-`h9` are 40-49. -/
def feFromBytesP : Prog := [
  (40, (.or .w64 (.or .w64 (.or .w64 (.cast .w64 (.v 0)) (.shl .w64 (.cast .w64 (.v 1)) 8)) (.shl .w64 (.cast .w64 (.v 2)) 16)) (.shl .w64 (.cast .w64 (.v 3)) 24))), -- 93: h0 := load4(src[:])
  (41, (.shl .w64 (.or .w64 (.or .w64 (.cast .w64 (.v 4)) (.shl .w64 (.cast .w64 (.v 5)) 8)) (.shl .w64 (.cast .w64 (.v 6)) 16)) 6)), -- 94: h1 := load3(src[4:]) << 6
  (42, (.shl .w64 (.or .w64 (.or .w64 (.cast .w64 (.v 7)) (.shl .w64 (.cast .w64 (.v 8)) 8)) (.shl .w64 (.cast .w64 (.v 9)) 16)) 5)), -- 95: h2 := load3(src[7:]) << 5
  (43, (.shl .w64 (.or .w64 (.or .w64 (.cast .w64 (.v 10)) (.shl .w64 (.cast .w64 (.v 11)) 8)) (.shl .w64 (.cast .w64 (.v 12)) 16)) 3)), -- 96: h3 := load3(src[10:]) << 3
  (44, (.shl .w64 (.or .w64 (.or .w64 (.cast .w64 (.v 13)) (.shl .w64 (.cast .w64 (.v 14)) 8)) (.shl .w64 (.cast .w64 (.v 15)) 16)) 2)), -- 97: h4 := load3(src[13:]) << 2
  (45, (.or .w64 (.or .w64 (.or .w64 (.cast .w64 (.v 16)) (.shl .w64 (.cast .w64 (.v 17)) 8)) (.shl .w64 (.cast .w64 (.v 18)) 16)) (.shl .w64 (.cast .w64 (.v 19)) 24))), -- 98: h5 := load4(src[16:])
  (46, (.shl .w64 (.or .w64 (.or .w64 (.cast .w64 (.v 20)) (.shl .w64 (.cast .w64 (.v 21)) 8)) (.shl .w64 (.cast .w64 (.v 22)) 16)) 7)), -- 99: h6 := load3(src[20:]) << 7
  (47, (.shl .w64 (.or .w64 (.or .w64 (.cast .w64 (.v 23)) (.shl .w64 (.cast .w64 (.v 24)) 8)) (.shl .w64 (.cast .w64 (.v 25)) 16)) 5)), -- 100: h7 := load3(src[23:]) << 5
  (48, (.shl .w64 (.or .w64 (.or .w64 (.cast .w64 (.v 26)) (.shl .w64 (.cast .w64 (.v 27)) 8)) (.shl .w64 (.cast .w64 (.v 28)) 16)) 4)), -- 101: h8 := load3(src[26:]) << 4
  (49, (.shl .w64 (.and .w64 (.or .w64 (.or .w64 (.cast .w64 (.v 29)) (.shl .w64 (.cast .w64 (.v 30)) 8)) (.shl .w64 (.cast .w64 (.v 31)) 16)) (.k 8388607)) 2)) -- 102: h9 := (load3(src[29:]) & 8388607) << 2
]

/-- ecc/edwards25519/edwards25519.go:133-143 `FeToBytes`, the computation of `q`. `h` is 0-9, `q` is 10. -/
def feToBytesQ : Prog := [
  (10, (.shr (.add .w32 (.mul .w32 (.k 19) (.v 9)) (.k 16777216)) 25)), -- 133: q := (19*h[9] + (1 << 24)) >> 25
  (10, (.shr (.add .w32 (.v 0) (.v 10)) 26)), -- 134: q = (h[0] + q) >> 26
  (10, (.shr (.add .w32 (.v 1) (.v 10)) 25)), -- 135: q = (h[1] + q) >> 25
  (10, (.shr (.add .w32 (.v 2) (.v 10)) 26)), -- 136: q = (h[2] + q) >> 26
  (10, (.shr (.add .w32 (.v 3) (.v 10)) 25)), -- 137: q = (h[3] + q) >> 25
  (10, (.shr (.add .w32 (.v 4) (.v 10)) 26)), -- 138: q = (h[4] + q) >> 26
  (10, (.shr (.add .w32 (.v 5) (.v 10)) 25)), -- 139: q = (h[5] + q) >> 25
  (10, (.shr (.add .w32 (.v 6) (.v 10)) 26)), -- 140: q = (h[6] + q) >> 26
  (10, (.shr (.add .w32 (.v 7) (.v 10)) 25)), -- 141: q = (h[7] + q) >> 25
  (10, (.shr (.add .w32 (.v 8) (.v 10)) 26)), -- 142: q = (h[8] + q) >> 26
  (10, (.shr (.add .w32 (.v 9) (.v 10)) 25)) -- 143: q = (h[9] + q) >> 25
]

/-- ecc/edwards25519/edwards25519.go:146-177 `FeToBytes`, the reduction. `h` is 0-9, `q` 10, `carry` 20-29. -/
def feToBytesC : Prog := [
  (0, (.add .w32 (.v 0) (.mul .w32 (.k 19) (.v 10)))), -- 146: h[0] += 19 * q
  (20, (.shr (.v 0) 26)), -- 149: carry[0] = h[0] >> 26
  (1, (.add .w32 (.v 1) (.v 20))), -- 150: h[1] += carry[0]
  (0, (.sub .w32 (.v 0) (.shl .w32 (.v 20) 26))), -- 151: h[0] -= carry[0] << 26
  (21, (.shr (.v 1) 25)), -- 152: carry[1] = h[1] >> 25
  (2, (.add .w32 (.v 2) (.v 21))), -- 153: h[2] += carry[1]
  (1, (.sub .w32 (.v 1) (.shl .w32 (.v 21) 25))), -- 154: h[1] -= carry[1] << 25
  (22, (.shr (.v 2) 26)), -- 155: carry[2] = h[2] >> 26
  (3, (.add .w32 (.v 3) (.v 22))), -- 156: h[3] += carry[2]
  (2, (.sub .w32 (.v 2) (.shl .w32 (.v 22) 26))), -- 157: h[2] -= carry[2] << 26
  (23, (.shr (.v 3) 25)), -- 158: carry[3] = h[3] >> 25
  (4, (.add .w32 (.v 4) (.v 23))), -- 159: h[4] += carry[3]
  (3, (.sub .w32 (.v 3) (.shl .w32 (.v 23) 25))), -- 160: h[3] -= carry[3] << 25
  (24, (.shr (.v 4) 26)), -- 161: carry[4] = h[4] >> 26
  (5, (.add .w32 (.v 5) (.v 24))), -- 162: h[5] += carry[4]
  (4, (.sub .w32 (.v 4) (.shl .w32 (.v 24) 26))), -- 163: h[4] -= carry[4] << 26
  (25, (.shr (.v 5) 25)), -- 164: carry[5] = h[5] >> 25
  (6, (.add .w32 (.v 6) (.v 25))), -- 165: h[6] += carry[5]
  (5, (.sub .w32 (.v 5) (.shl .w32 (.v 25) 25))), -- 166: h[5] -= carry[5] << 25
  (26, (.shr (.v 6) 26)), -- 167: carry[6] = h[6] >> 26
  (7, (.add .w32 (.v 7) (.v 26))), -- 168: h[7] += carry[6]
  (6, (.sub .w32 (.v 6) (.shl .w32 (.v 26) 26))), -- 169: h[6] -= carry[6] << 26
  (27, (.shr (.v 7) 25)), -- 170: carry[7] = h[7] >> 25
  (8, (.add .w32 (.v 8) (.v 27))), -- 171: h[8] += carry[7]
  (7, (.sub .w32 (.v 7) (.shl .w32 (.v 27) 25))), -- 172: h[7] -= carry[7] << 25
  (28, (.shr (.v 8) 26)), -- 173: carry[8] = h[8] >> 26
  (9, (.add .w32 (.v 9) (.v 28))), -- 174: h[9] += carry[8]
  (8, (.sub .w32 (.v 8) (.shl .w32 (.v 28) 26))), -- 175: h[8] -= carry[8] << 26
  (29, (.shr (.v 9) 25)), -- 176: carry[9] = h[9] >> 25
  (9, (.sub .w32 (.v 9) (.shl .w32 (.v 29) 25))) -- 177: h[9] -= carry[9] << 25
]

/-- ecc/edwards25519/edwards25519.go:185-216 `FeToBytes`, the bytes. `h` is 0-9, `s` is 30-61. -/
def feToBytesS : Prog := [
  (30, (.cast .w8 (.shr (.v 0) 0))), -- 185: s[0] = byte(h[0] >> 0)
  (31, (.cast .w8 (.shr (.v 0) 8))), -- 186: s[1] = byte(h[0] >> 8)
  (32, (.cast .w8 (.shr (.v 0) 16))), -- 187: s[2] = byte(h[0] >> 16)
  (33, (.cast .w8 (.or .w32 (.shr (.v 0) 24) (.shl .w32 (.v 1) 2)))), -- 188: s[3] = byte((h[0] >> 24) | (h[1] << 2))
  (34, (.cast .w8 (.shr (.v 1) 6))), -- 189: s[4] = byte(h[1] >> 6)
  (35, (.cast .w8 (.shr (.v 1) 14))), -- 190: s[5] = byte(h[1] >> 14)
  (36, (.cast .w8 (.or .w32 (.shr (.v 1) 22) (.shl .w32 (.v 2) 3)))), -- 191: s[6] = byte((h[1] >> 22) | (h[2] << 3))
  (37, (.cast .w8 (.shr (.v 2) 5))), -- 192: s[7] = byte(h[2] >> 5)
  (38, (.cast .w8 (.shr (.v 2) 13))), -- 193: s[8] = byte(h[2] >> 13)
  (39, (.cast .w8 (.or .w32 (.shr (.v 2) 21) (.shl .w32 (.v 3) 5)))), -- 194: s[9] = byte((h[2] >> 21) | (h[3] << 5))
  (40, (.cast .w8 (.shr (.v 3) 3))), -- 195: s[10] = byte(h[3] >> 3)
  (41, (.cast .w8 (.shr (.v 3) 11))), -- 196: s[11] = byte(h[3] >> 11)
  (42, (.cast .w8 (.or .w32 (.shr (.v 3) 19) (.shl .w32 (.v 4) 6)))), -- 197: s[12] = byte((h[3] >> 19) | (h[4] << 6))
  (43, (.cast .w8 (.shr (.v 4) 2))), -- 198: s[13] = byte(h[4] >> 2)
  (44, (.cast .w8 (.shr (.v 4) 10))), -- 199: s[14] = byte(h[4] >> 10)
  (45, (.cast .w8 (.shr (.v 4) 18))), -- 200: s[15] = byte(h[4] >> 18)
  (46, (.cast .w8 (.shr (.v 5) 0))), -- 201: s[16] = byte(h[5] >> 0)
  (47, (.cast .w8 (.shr (.v 5) 8))), -- 202: s[17] = byte(h[5] >> 8)
  (48, (.cast .w8 (.shr (.v 5) 16))), -- 203: s[18] = byte(h[5] >> 16)
  (49, (.cast .w8 (.or .w32 (.shr (.v 5) 24) (.shl .w32 (.v 6) 1)))), -- 204: s[19] = byte((h[5] >> 24) | (h[6] << 1))
  (50, (.cast .w8 (.shr (.v 6) 7))), -- 205: s[20] = byte(h[6] >> 7)
  (51, (.cast .w8 (.shr (.v 6) 15))), -- 206: s[21] = byte(h[6] >> 15)
  (52, (.cast .w8 (.or .w32 (.shr (.v 6) 23) (.shl .w32 (.v 7) 3)))), -- 207: s[22] = byte((h[6] >> 23) | (h[7] << 3))
  (53, (.cast .w8 (.shr (.v 7) 5))), -- 208: s[23] = byte(h[7] >> 5)
  (54, (.cast .w8 (.shr (.v 7) 13))), -- 209: s[24] = byte(h[7] >> 13)
  (55, (.cast .w8 (.or .w32 (.shr (.v 7) 21) (.shl .w32 (.v 8) 4)))), -- 210: s[25] = byte((h[7] >> 21) | (h[8] << 4))
  (56, (.cast .w8 (.shr (.v 8) 4))), -- 211: s[26] = byte(h[8] >> 4)
  (57, (.cast .w8 (.shr (.v 8) 12))), -- 212: s[27] = byte(h[8] >> 12)
  (58, (.cast .w8 (.or .w32 (.shr (.v 8) 20) (.shl .w32 (.v 9) 6)))), -- 213: s[28] = byte((h[8] >> 20) | (h[9] << 6))
  (59, (.cast .w8 (.shr (.v 9) 2))), -- 214: s[29] = byte(h[9] >> 2)
  (60, (.cast .w8 (.shr (.v 9) 10))), -- 215: s[30] = byte(h[9] >> 10)
  (61, (.cast .w8 (.shr (.v 9) 18))) -- 216: s[31] = byte(h[9] >> 18)
]

/-- ecc/edwards25519/edwards25519.go:1324-1347 `ScReduce`, the limbs. The input bytes are 0-63, `out` 64-95, `s0`-`s23` 100-123, `carry` 130-152. -/
def scReduceLoad : Prog := [
  (100, (.and .w64 (.k 2097151) (.or .w64 (.or .w64 (.cast .w64 (.v 0)) (.shl .w64 (.cast .w64 (.v 1)) 8)) (.shl .w64 (.cast .w64 (.v 2)) 16)))), -- 1324: s0 := 2097151 & load3(s[:])
  (101, (.and .w64 (.k 2097151) (.shr (.or .w64 (.or .w64 (.or .w64 (.cast .w64 (.v 2)) (.shl .w64 (.cast .w64 (.v 3)) 8)) (.shl .w64 (.cast .w64 (.v 4)) 16)) (.shl .w64 (.cast .w64 (.v 5)) 24)) 5))), -- 1325: s1 := 2097151 & (load4(s[2:]) >> 5)
  (102, (.and .w64 (.k 2097151) (.shr (.or .w64 (.or .w64 (.cast .w64 (.v 5)) (.shl .w64 (.cast .w64 (.v 6)) 8)) (.shl .w64 (.cast .w64 (.v 7)) 16)) 2))), -- 1326: s2 := 2097151 & (load3(s[5:]) >> 2)
  (103, (.and .w64 (.k 2097151) (.shr (.or .w64 (.or .w64 (.or .w64 (.cast .w64 (.v 7)) (.shl .w64 (.cast .w64 (.v 8)) 8)) (.shl .w64 (.cast .w64 (.v 9)) 16)) (.shl .w64 (.cast .w64 (.v 10)) 24)) 7))), -- 1327: s3 := 2097151 & (load4(s[7:]) >> 7)
  (104, (.and .w64 (.k 2097151) (.shr (.or .w64 (.or .w64 (.or .w64 (.cast .w64 (.v 10)) (.shl .w64 (.cast .w64 (.v 11)) 8)) (.shl .w64 (.cast .w64 (.v 12)) 16)) (.shl .w64 (.cast .w64 (.v 13)) 24)) 4))), -- 1328: s4 := 2097151 & (load4(s[10:]) >> 4)
  (105, (.and .w64 (.k 2097151) (.shr (.or .w64 (.or .w64 (.cast .w64 (.v 13)) (.shl .w64 (.cast .w64 (.v 14)) 8)) (.shl .w64 (.cast .w64 (.v 15)) 16)) 1))), -- 1329: s5 := 2097151 & (load3(s[13:]) >> 1)
  (106, (.and .w64 (.k 2097151) (.shr (.or .w64 (.or .w64 (.or .w64 (.cast .w64 (.v 15)) (.shl .w64 (.cast .w64 (.v 16)) 8)) (.shl .w64 (.cast .w64 (.v 17)) 16)) (.shl .w64 (.cast .w64 (.v 18)) 24)) 6))), -- 1330: s6 := 2097151 & (load4(s[15:]) >> 6)
  (107, (.and .w64 (.k 2097151) (.shr (.or .w64 (.or .w64 (.cast .w64 (.v 18)) (.shl .w64 (.cast .w64 (.v 19)) 8)) (.shl .w64 (.cast .w64 (.v 20)) 16)) 3))), -- 1331: s7 := 2097151 & (load3(s[18:]) >> 3)
  (108, (.and .w64 (.k 2097151) (.or .w64 (.or .w64 (.cast .w64 (.v 21)) (.shl .w64 (.cast .w64 (.v 22)) 8)) (.shl .w64 (.cast .w64 (.v 23)) 16)))), -- 1332: s8 := 2097151 & load3(s[21:])
  (109, (.and .w64 (.k 2097151) (.shr (.or .w64 (.or .w64 (.or .w64 (.cast .w64 (.v 23)) (.shl .w64 (.cast .w64 (.v 24)) 8)) (.shl .w64 (.cast .w64 (.v 25)) 16)) (.shl .w64 (.cast .w64 (.v 26)) 24)) 5))), -- 1333: s9 := 2097151 & (load4(s[23:]) >> 5)
  (110, (.and .w64 (.k 2097151) (.shr (.or .w64 (.or .w64 (.cast .w64 (.v 26)) (.shl .w64 (.cast .w64 (.v 27)) 8)) (.shl .w64 (.cast .w64 (.v 28)) 16)) 2))), -- 1334: s10 := 2097151 & (load3(s[26:]) >> 2)
  (111, (.and .w64 (.k 2097151) (.shr (.or .w64 (.or .w64 (.or .w64 (.cast .w64 (.v 28)) (.shl .w64 (.cast .w64 (.v 29)) 8)) (.shl .w64 (.cast .w64 (.v 30)) 16)) (.shl .w64 (.cast .w64 (.v 31)) 24)) 7))), -- 1335: s11 := 2097151 & (load4(s[28:]) >> 7)
  (112, (.and .w64 (.k 2097151) (.shr (.or .w64 (.or .w64 (.or .w64 (.cast .w64 (.v 31)) (.shl .w64 (.cast .w64 (.v 32)) 8)) (.shl .w64 (.cast .w64 (.v 33)) 16)) (.shl .w64 (.cast .w64 (.v 34)) 24)) 4))), -- 1336: s12 := 2097151 & (load4(s[31:]) >> 4)
  (113, (.and .w64 (.k 2097151) (.shr (.or .w64 (.or .w64 (.cast .w64 (.v 34)) (.shl .w64 (.cast .w64 (.v 35)) 8)) (.shl .w64 (.cast .w64 (.v 36)) 16)) 1))), -- 1337: s13 := 2097151 & (load3(s[34:]) >> 1)
  (114, (.and .w64 (.k 2097151) (.shr (.or .w64 (.or .w64 (.or .w64 (.cast .w64 (.v 36)) (.shl .w64 (.cast .w64 (.v 37)) 8)) (.shl .w64 (.cast .w64 (.v 38)) 16)) (.shl .w64 (.cast .w64 (.v 39)) 24)) 6))), -- 1338: s14 := 2097151 & (load4(s[36:]) >> 6)
  (115, (.and .w64 (.k 2097151) (.shr (.or .w64 (.or .w64 (.cast .w64 (.v 39)) (.shl .w64 (.cast .w64 (.v 40)) 8)) (.shl .w64 (.cast .w64 (.v 41)) 16)) 3))), -- 1339: s15 := 2097151 & (load3(s[39:]) >> 3)
  (116, (.and .w64 (.k 2097151) (.or .w64 (.or .w64 (.cast .w64 (.v 42)) (.shl .w64 (.cast .w64 (.v 43)) 8)) (.shl .w64 (.cast .w64 (.v 44)) 16)))), -- 1340: s16 := 2097151 & load3(s[42:])
  (117, (.and .w64 (.k 2097151) (.shr (.or .w64 (.or .w64 (.or .w64 (.cast .w64 (.v 44)) (.shl .w64 (.cast .w64 (.v 45)) 8)) (.shl .w64 (.cast .w64 (.v 46)) 16)) (.shl .w64 (.cast .w64 (.v 47)) 24)) 5))), -- 1341: s17 := 2097151 & (load4(s[44:]) >> 5)
  (118, (.and .w64 (.k 2097151) (.shr (.or .w64 (.or .w64 (.cast .w64 (.v 47)) (.shl .w64 (.cast .w64 (.v 48)) 8)) (.shl .w64 (.cast .w64 (.v 49)) 16)) 2))), -- 1342: s18 := 2097151 & (load3(s[47:]) >> 2)
  (119, (.and .w64 (.k 2097151) (.shr (.or .w64 (.or .w64 (.or .w64 (.cast .w64 (.v 49)) (.shl .w64 (.cast .w64 (.v 50)) 8)) (.shl .w64 (.cast .w64 (.v 51)) 16)) (.shl .w64 (.cast .w64 (.v 52)) 24)) 7))), -- 1343: s19 := 2097151 & (load4(s[49:]) >> 7)
  (120, (.and .w64 (.k 2097151) (.shr (.or .w64 (.or .w64 (.or .w64 (.cast .w64 (.v 52)) (.shl .w64 (.cast .w64 (.v 53)) 8)) (.shl .w64 (.cast .w64 (.v 54)) 16)) (.shl .w64 (.cast .w64 (.v 55)) 24)) 4))), -- 1344: s20 := 2097151 & (load4(s[52:]) >> 4)
  (121, (.and .w64 (.k 2097151) (.shr (.or .w64 (.or .w64 (.cast .w64 (.v 55)) (.shl .w64 (.cast .w64 (.v 56)) 8)) (.shl .w64 (.cast .w64 (.v 57)) 16)) 1))), -- 1345: s21 := 2097151 & (load3(s[55:]) >> 1)
  (122, (.and .w64 (.k 2097151) (.shr (.or .w64 (.or .w64 (.or .w64 (.cast .w64 (.v 57)) (.shl .w64 (.cast .w64 (.v 58)) 8)) (.shl .w64 (.cast .w64 (.v 59)) 16)) (.shl .w64 (.cast .w64 (.v 60)) 24)) 6))), -- 1346: s22 := 2097151 & (load4(s[57:]) >> 6)
  (123, (.shr (.or .w64 (.or .w64 (.or .w64 (.cast .w64 (.v 60)) (.shl .w64 (.cast .w64 (.v 61)) 8)) (.shl .w64 (.cast .w64 (.v 62)) 16)) (.shl .w64 (.cast .w64 (.v 63)) 24)) 3)) -- 1347: s23 := (load4(s[60:]) >> 3)
]

/-- ecc/edwards25519/edwards25519.go:1349-1526 `ScReduce`, folds and rounded carries. The input bytes are 0-63, `out` 64-95, `s0`-`s23` 100-123, `carry` 130-152. -/
def scReduceFold : Prog := [
  (111, (.add .w64 (.v 111) (.mul .w64 (.v 123) (.k 666643)))), -- 1349: s11 += s23 * 666643
  (112, (.add .w64 (.v 112) (.mul .w64 (.v 123) (.k 470296)))), -- 1350: s12 += s23 * 470296
  (113, (.add .w64 (.v 113) (.mul .w64 (.v 123) (.k 654183)))), -- 1351: s13 += s23 * 654183
  (114, (.sub .w64 (.v 114) (.mul .w64 (.v 123) (.k 997805)))), -- 1352: s14 -= s23 * 997805
  (115, (.add .w64 (.v 115) (.mul .w64 (.v 123) (.k 136657)))), -- 1353: s15 += s23 * 136657
  (116, (.sub .w64 (.v 116) (.mul .w64 (.v 123) (.k 683901)))), -- 1354: s16 -= s23 * 683901
  (123, (.k 0)), -- 1355: s23 = 0
  (110, (.add .w64 (.v 110) (.mul .w64 (.v 122) (.k 666643)))), -- 1357: s10 += s22 * 666643
  (111, (.add .w64 (.v 111) (.mul .w64 (.v 122) (.k 470296)))), -- 1358: s11 += s22 * 470296
  (112, (.add .w64 (.v 112) (.mul .w64 (.v 122) (.k 654183)))), -- 1359: s12 += s22 * 654183
  (113, (.sub .w64 (.v 113) (.mul .w64 (.v 122) (.k 997805)))), -- 1360: s13 -= s22 * 997805
  (114, (.add .w64 (.v 114) (.mul .w64 (.v 122) (.k 136657)))), -- 1361: s14 += s22 * 136657
  (115, (.sub .w64 (.v 115) (.mul .w64 (.v 122) (.k 683901)))), -- 1362: s15 -= s22 * 683901
  (122, (.k 0)), -- 1363: s22 = 0
  (109, (.add .w64 (.v 109) (.mul .w64 (.v 121) (.k 666643)))), -- 1365: s9 += s21 * 666643
  (110, (.add .w64 (.v 110) (.mul .w64 (.v 121) (.k 470296)))), -- 1366: s10 += s21 * 470296
  (111, (.add .w64 (.v 111) (.mul .w64 (.v 121) (.k 654183)))), -- 1367: s11 += s21 * 654183
  (112, (.sub .w64 (.v 112) (.mul .w64 (.v 121) (.k 997805)))), -- 1368: s12 -= s21 * 997805
  (113, (.add .w64 (.v 113) (.mul .w64 (.v 121) (.k 136657)))), -- 1369: s13 += s21 * 136657
  (114, (.sub .w64 (.v 114) (.mul .w64 (.v 121) (.k 683901)))), -- 1370: s14 -= s21 * 683901
  (121, (.k 0)), -- 1371: s21 = 0
  (108, (.add .w64 (.v 108) (.mul .w64 (.v 120) (.k 666643)))), -- 1373: s8 += s20 * 666643
  (109, (.add .w64 (.v 109) (.mul .w64 (.v 120) (.k 470296)))), -- 1374: s9 += s20 * 470296
  (110, (.add .w64 (.v 110) (.mul .w64 (.v 120) (.k 654183)))), -- 1375: s10 += s20 * 654183
  (111, (.sub .w64 (.v 111) (.mul .w64 (.v 120) (.k 997805)))), -- 1376: s11 -= s20 * 997805
  (112, (.add .w64 (.v 112) (.mul .w64 (.v 120) (.k 136657)))), -- 1377: s12 += s20 * 136657
  (113, (.sub .w64 (.v 113) (.mul .w64 (.v 120) (.k 683901)))), -- 1378: s13 -= s20 * 683901
  (120, (.k 0)), -- 1379: s20 = 0
  (107, (.add .w64 (.v 107) (.mul .w64 (.v 119) (.k 666643)))), -- 1381: s7 += s19 * 666643
  (108, (.add .w64 (.v 108) (.mul .w64 (.v 119) (.k 470296)))), -- 1382: s8 += s19 * 470296
  (109, (.add .w64 (.v 109) (.mul .w64 (.v 119) (.k 654183)))), -- 1383: s9 += s19 * 654183
  (110, (.sub .w64 (.v 110) (.mul .w64 (.v 119) (.k 997805)))), -- 1384: s10 -= s19 * 997805
  (111, (.add .w64 (.v 111) (.mul .w64 (.v 119) (.k 136657)))), -- 1385: s11 += s19 * 136657
  (112, (.sub .w64 (.v 112) (.mul .w64 (.v 119) (.k 683901)))), -- 1386: s12 -= s19 * 683901
  (119, (.k 0)), -- 1387: s19 = 0
  (106, (.add .w64 (.v 106) (.mul .w64 (.v 118) (.k 666643)))), -- 1389: s6 += s18 * 666643
  (107, (.add .w64 (.v 107) (.mul .w64 (.v 118) (.k 470296)))), -- 1390: s7 += s18 * 470296
  (108, (.add .w64 (.v 108) (.mul .w64 (.v 118) (.k 654183)))), -- 1391: s8 += s18 * 654183
  (109, (.sub .w64 (.v 109) (.mul .w64 (.v 118) (.k 997805)))), -- 1392: s9 -= s18 * 997805
  (110, (.add .w64 (.v 110) (.mul .w64 (.v 118) (.k 136657)))), -- 1393: s10 += s18 * 136657
  (111, (.sub .w64 (.v 111) (.mul .w64 (.v 118) (.k 683901)))), -- 1394: s11 -= s18 * 683901
  (118, (.k 0)), -- 1395: s18 = 0
  (136, (.shr (.add .w64 (.v 106) (.k 1048576)) 21)), -- 1399: carry[6] = (s6 + (1 << 20)) >> 21
  (107, (.add .w64 (.v 107) (.v 136))), -- 1400: s7 += carry[6]
  (106, (.sub .w64 (.v 106) (.shl .w64 (.v 136) 21))), -- 1401: s6 -= carry[6] << 21
  (138, (.shr (.add .w64 (.v 108) (.k 1048576)) 21)), -- 1402: carry[8] = (s8 + (1 << 20)) >> 21
  (109, (.add .w64 (.v 109) (.v 138))), -- 1403: s9 += carry[8]
  (108, (.sub .w64 (.v 108) (.shl .w64 (.v 138) 21))), -- 1404: s8 -= carry[8] << 21
  (140, (.shr (.add .w64 (.v 110) (.k 1048576)) 21)), -- 1405: carry[10] = (s10 + (1 << 20)) >> 21
  (111, (.add .w64 (.v 111) (.v 140))), -- 1406: s11 += carry[10]
  (110, (.sub .w64 (.v 110) (.shl .w64 (.v 140) 21))), -- 1407: s10 -= carry[10] << 21
  (142, (.shr (.add .w64 (.v 112) (.k 1048576)) 21)), -- 1408: carry[12] = (s12 + (1 << 20)) >> 21
  (113, (.add .w64 (.v 113) (.v 142))), -- 1409: s13 += carry[12]
  (112, (.sub .w64 (.v 112) (.shl .w64 (.v 142) 21))), -- 1410: s12 -= carry[12] << 21
  (144, (.shr (.add .w64 (.v 114) (.k 1048576)) 21)), -- 1411: carry[14] = (s14 + (1 << 20)) >> 21
  (115, (.add .w64 (.v 115) (.v 144))), -- 1412: s15 += carry[14]
  (114, (.sub .w64 (.v 114) (.shl .w64 (.v 144) 21))), -- 1413: s14 -= carry[14] << 21
  (146, (.shr (.add .w64 (.v 116) (.k 1048576)) 21)), -- 1414: carry[16] = (s16 + (1 << 20)) >> 21
  (117, (.add .w64 (.v 117) (.v 146))), -- 1415: s17 += carry[16]
  (116, (.sub .w64 (.v 116) (.shl .w64 (.v 146) 21))), -- 1416: s16 -= carry[16] << 21
  (137, (.shr (.add .w64 (.v 107) (.k 1048576)) 21)), -- 1418: carry[7] = (s7 + (1 << 20)) >> 21
  (108, (.add .w64 (.v 108) (.v 137))), -- 1419: s8 += carry[7]
  (107, (.sub .w64 (.v 107) (.shl .w64 (.v 137) 21))), -- 1420: s7 -= carry[7] << 21
  (139, (.shr (.add .w64 (.v 109) (.k 1048576)) 21)), -- 1421: carry[9] = (s9 + (1 << 20)) >> 21
  (110, (.add .w64 (.v 110) (.v 139))), -- 1422: s10 += carry[9]
  (109, (.sub .w64 (.v 109) (.shl .w64 (.v 139) 21))), -- 1423: s9 -= carry[9] << 21
  (141, (.shr (.add .w64 (.v 111) (.k 1048576)) 21)), -- 1424: carry[11] = (s11 + (1 << 20)) >> 21
  (112, (.add .w64 (.v 112) (.v 141))), -- 1425: s12 += carry[11]
  (111, (.sub .w64 (.v 111) (.shl .w64 (.v 141) 21))), -- 1426: s11 -= carry[11] << 21
  (143, (.shr (.add .w64 (.v 113) (.k 1048576)) 21)), -- 1427: carry[13] = (s13 + (1 << 20)) >> 21
  (114, (.add .w64 (.v 114) (.v 143))), -- 1428: s14 += carry[13]
  (113, (.sub .w64 (.v 113) (.shl .w64 (.v 143) 21))), -- 1429: s13 -= carry[13] << 21
  (145, (.shr (.add .w64 (.v 115) (.k 1048576)) 21)), -- 1430: carry[15] = (s15 + (1 << 20)) >> 21
  (116, (.add .w64 (.v 116) (.v 145))), -- 1431: s16 += carry[15]
  (115, (.sub .w64 (.v 115) (.shl .w64 (.v 145) 21))), -- 1432: s15 -= carry[15] << 21
  (105, (.add .w64 (.v 105) (.mul .w64 (.v 117) (.k 666643)))), -- 1434: s5 += s17 * 666643
  (106, (.add .w64 (.v 106) (.mul .w64 (.v 117) (.k 470296)))), -- 1435: s6 += s17 * 470296
  (107, (.add .w64 (.v 107) (.mul .w64 (.v 117) (.k 654183)))), -- 1436: s7 += s17 * 654183
  (108, (.sub .w64 (.v 108) (.mul .w64 (.v 117) (.k 997805)))), -- 1437: s8 -= s17 * 997805
  (109, (.add .w64 (.v 109) (.mul .w64 (.v 117) (.k 136657)))), -- 1438: s9 += s17 * 136657
  (110, (.sub .w64 (.v 110) (.mul .w64 (.v 117) (.k 683901)))), -- 1439: s10 -= s17 * 683901
  (117, (.k 0)), -- 1440: s17 = 0
  (104, (.add .w64 (.v 104) (.mul .w64 (.v 116) (.k 666643)))), -- 1442: s4 += s16 * 666643
  (105, (.add .w64 (.v 105) (.mul .w64 (.v 116) (.k 470296)))), -- 1443: s5 += s16 * 470296
  (106, (.add .w64 (.v 106) (.mul .w64 (.v 116) (.k 654183)))), -- 1444: s6 += s16 * 654183
  (107, (.sub .w64 (.v 107) (.mul .w64 (.v 116) (.k 997805)))), -- 1445: s7 -= s16 * 997805
  (108, (.add .w64 (.v 108) (.mul .w64 (.v 116) (.k 136657)))), -- 1446: s8 += s16 * 136657
  (109, (.sub .w64 (.v 109) (.mul .w64 (.v 116) (.k 683901)))), -- 1447: s9 -= s16 * 683901
  (116, (.k 0)), -- 1448: s16 = 0
  (103, (.add .w64 (.v 103) (.mul .w64 (.v 115) (.k 666643)))), -- 1450: s3 += s15 * 666643
  (104, (.add .w64 (.v 104) (.mul .w64 (.v 115) (.k 470296)))), -- 1451: s4 += s15 * 470296
  (105, (.add .w64 (.v 105) (.mul .w64 (.v 115) (.k 654183)))), -- 1452: s5 += s15 * 654183
  (106, (.sub .w64 (.v 106) (.mul .w64 (.v 115) (.k 997805)))), -- 1453: s6 -= s15 * 997805
  (107, (.add .w64 (.v 107) (.mul .w64 (.v 115) (.k 136657)))), -- 1454: s7 += s15 * 136657
  (108, (.sub .w64 (.v 108) (.mul .w64 (.v 115) (.k 683901)))), -- 1455: s8 -= s15 * 683901
  (115, (.k 0)), -- 1456: s15 = 0
  (102, (.add .w64 (.v 102) (.mul .w64 (.v 114) (.k 666643)))), -- 1458: s2 += s14 * 666643
  (103, (.add .w64 (.v 103) (.mul .w64 (.v 114) (.k 470296)))), -- 1459: s3 += s14 * 470296
  (104, (.add .w64 (.v 104) (.mul .w64 (.v 114) (.k 654183)))), -- 1460: s4 += s14 * 654183
  (105, (.sub .w64 (.v 105) (.mul .w64 (.v 114) (.k 997805)))), -- 1461: s5 -= s14 * 997805
  (106, (.add .w64 (.v 106) (.mul .w64 (.v 114) (.k 136657)))), -- 1462: s6 += s14 * 136657
  (107, (.sub .w64 (.v 107) (.mul .w64 (.v 114) (.k 683901)))), -- 1463: s7 -= s14 * 683901
  (114, (.k 0)), -- 1464: s14 = 0
  (101, (.add .w64 (.v 101) (.mul .w64 (.v 113) (.k 666643)))), -- 1466: s1 += s13 * 666643
  (102, (.add .w64 (.v 102) (.mul .w64 (.v 113) (.k 470296)))), -- 1467: s2 += s13 * 470296
  (103, (.add .w64 (.v 103) (.mul .w64 (.v 113) (.k 654183)))), -- 1468: s3 += s13 * 654183
  (104, (.sub .w64 (.v 104) (.mul .w64 (.v 113) (.k 997805)))), -- 1469: s4 -= s13 * 997805
  (105, (.add .w64 (.v 105) (.mul .w64 (.v 113) (.k 136657)))), -- 1470: s5 += s13 * 136657
  (106, (.sub .w64 (.v 106) (.mul .w64 (.v 113) (.k 683901)))), -- 1471: s6 -= s13 * 683901
  (113, (.k 0)), -- 1472: s13 = 0
  (100, (.add .w64 (.v 100) (.mul .w64 (.v 112) (.k 666643)))), -- 1474: s0 += s12 * 666643
  (101, (.add .w64 (.v 101) (.mul .w64 (.v 112) (.k 470296)))), -- 1475: s1 += s12 * 470296
  (102, (.add .w64 (.v 102) (.mul .w64 (.v 112) (.k 654183)))), -- 1476: s2 += s12 * 654183
  (103, (.sub .w64 (.v 103) (.mul .w64 (.v 112) (.k 997805)))), -- 1477: s3 -= s12 * 997805
  (104, (.add .w64 (.v 104) (.mul .w64 (.v 112) (.k 136657)))), -- 1478: s4 += s12 * 136657
  (105, (.sub .w64 (.v 105) (.mul .w64 (.v 112) (.k 683901)))), -- 1479: s5 -= s12 * 683901
  (112, (.k 0)), -- 1480: s12 = 0
  (130, (.shr (.add .w64 (.v 100) (.k 1048576)) 21)), -- 1482: carry[0] = (s0 + (1 << 20)) >> 21
  (101, (.add .w64 (.v 101) (.v 130))), -- 1483: s1 += carry[0]
  (100, (.sub .w64 (.v 100) (.shl .w64 (.v 130) 21))), -- 1484: s0 -= carry[0] << 21
  (132, (.shr (.add .w64 (.v 102) (.k 1048576)) 21)), -- 1485: carry[2] = (s2 + (1 << 20)) >> 21
  (103, (.add .w64 (.v 103) (.v 132))), -- 1486: s3 += carry[2]
  (102, (.sub .w64 (.v 102) (.shl .w64 (.v 132) 21))), -- 1487: s2 -= carry[2] << 21
  (134, (.shr (.add .w64 (.v 104) (.k 1048576)) 21)), -- 1488: carry[4] = (s4 + (1 << 20)) >> 21
  (105, (.add .w64 (.v 105) (.v 134))), -- 1489: s5 += carry[4]
  (104, (.sub .w64 (.v 104) (.shl .w64 (.v 134) 21))), -- 1490: s4 -= carry[4] << 21
  (136, (.shr (.add .w64 (.v 106) (.k 1048576)) 21)), -- 1491: carry[6] = (s6 + (1 << 20)) >> 21
  (107, (.add .w64 (.v 107) (.v 136))), -- 1492: s7 += carry[6]
  (106, (.sub .w64 (.v 106) (.shl .w64 (.v 136) 21))), -- 1493: s6 -= carry[6] << 21
  (138, (.shr (.add .w64 (.v 108) (.k 1048576)) 21)), -- 1494: carry[8] = (s8 + (1 << 20)) >> 21
  (109, (.add .w64 (.v 109) (.v 138))), -- 1495: s9 += carry[8]
  (108, (.sub .w64 (.v 108) (.shl .w64 (.v 138) 21))), -- 1496: s8 -= carry[8] << 21
  (140, (.shr (.add .w64 (.v 110) (.k 1048576)) 21)), -- 1497: carry[10] = (s10 + (1 << 20)) >> 21
  (111, (.add .w64 (.v 111) (.v 140))), -- 1498: s11 += carry[10]
  (110, (.sub .w64 (.v 110) (.shl .w64 (.v 140) 21))), -- 1499: s10 -= carry[10] << 21
  (131, (.shr (.add .w64 (.v 101) (.k 1048576)) 21)), -- 1501: carry[1] = (s1 + (1 << 20)) >> 21
  (102, (.add .w64 (.v 102) (.v 131))), -- 1502: s2 += carry[1]
  (101, (.sub .w64 (.v 101) (.shl .w64 (.v 131) 21))), -- 1503: s1 -= carry[1] << 21
  (133, (.shr (.add .w64 (.v 103) (.k 1048576)) 21)), -- 1504: carry[3] = (s3 + (1 << 20)) >> 21
  (104, (.add .w64 (.v 104) (.v 133))), -- 1505: s4 += carry[3]
  (103, (.sub .w64 (.v 103) (.shl .w64 (.v 133) 21))), -- 1506: s3 -= carry[3] << 21
  (135, (.shr (.add .w64 (.v 105) (.k 1048576)) 21)), -- 1507: carry[5] = (s5 + (1 << 20)) >> 21
  (106, (.add .w64 (.v 106) (.v 135))), -- 1508: s6 += carry[5]
  (105, (.sub .w64 (.v 105) (.shl .w64 (.v 135) 21))), -- 1509: s5 -= carry[5] << 21
  (137, (.shr (.add .w64 (.v 107) (.k 1048576)) 21)), -- 1510: carry[7] = (s7 + (1 << 20)) >> 21
  (108, (.add .w64 (.v 108) (.v 137))), -- 1511: s8 += carry[7]
  (107, (.sub .w64 (.v 107) (.shl .w64 (.v 137) 21))), -- 1512: s7 -= carry[7] << 21
  (139, (.shr (.add .w64 (.v 109) (.k 1048576)) 21)), -- 1513: carry[9] = (s9 + (1 << 20)) >> 21
  (110, (.add .w64 (.v 110) (.v 139))), -- 1514: s10 += carry[9]
  (109, (.sub .w64 (.v 109) (.shl .w64 (.v 139) 21))), -- 1515: s9 -= carry[9] << 21
  (141, (.shr (.add .w64 (.v 111) (.k 1048576)) 21)), -- 1516: carry[11] = (s11 + (1 << 20)) >> 21
  (112, (.add .w64 (.v 112) (.v 141))), -- 1517: s12 += carry[11]
  (111, (.sub .w64 (.v 111) (.shl .w64 (.v 141) 21))), -- 1518: s11 -= carry[11] << 21
  (100, (.add .w64 (.v 100) (.mul .w64 (.v 112) (.k 666643)))), -- 1520: s0 += s12 * 666643
  (101, (.add .w64 (.v 101) (.mul .w64 (.v 112) (.k 470296)))), -- 1521: s1 += s12 * 470296
  (102, (.add .w64 (.v 102) (.mul .w64 (.v 112) (.k 654183)))), -- 1522: s2 += s12 * 654183
  (103, (.sub .w64 (.v 103) (.mul .w64 (.v 112) (.k 997805)))), -- 1523: s3 -= s12 * 997805
  (104, (.add .w64 (.v 104) (.mul .w64 (.v 112) (.k 136657)))), -- 1524: s4 += s12 * 136657
  (105, (.sub .w64 (.v 105) (.mul .w64 (.v 112) (.k 683901)))), -- 1525: s5 -= s12 * 683901
  (112, (.k 0)) -- 1526: s12 = 0
]

/-- ecc/edwards25519/edwards25519.go:1528-1563 `ScReduce`, the first chain of floor carries. The input bytes are 0-63, `out` 64-95, `s0`-`s23` 100-123, `carry` 130-152. -/
def scReduceFloor : Prog := [
  (130, (.shr (.v 100) 21)), -- 1528: carry[0] = s0 >> 21
  (101, (.add .w64 (.v 101) (.v 130))), -- 1529: s1 += carry[0]
  (100, (.sub .w64 (.v 100) (.shl .w64 (.v 130) 21))), -- 1530: s0 -= carry[0] << 21
  (131, (.shr (.v 101) 21)), -- 1531: carry[1] = s1 >> 21
  (102, (.add .w64 (.v 102) (.v 131))), -- 1532: s2 += carry[1]
  (101, (.sub .w64 (.v 101) (.shl .w64 (.v 131) 21))), -- 1533: s1 -= carry[1] << 21
  (132, (.shr (.v 102) 21)), -- 1534: carry[2] = s2 >> 21
  (103, (.add .w64 (.v 103) (.v 132))), -- 1535: s3 += carry[2]
  (102, (.sub .w64 (.v 102) (.shl .w64 (.v 132) 21))), -- 1536: s2 -= carry[2] << 21
  (133, (.shr (.v 103) 21)), -- 1537: carry[3] = s3 >> 21
  (104, (.add .w64 (.v 104) (.v 133))), -- 1538: s4 += carry[3]
  (103, (.sub .w64 (.v 103) (.shl .w64 (.v 133) 21))), -- 1539: s3 -= carry[3] << 21
  (134, (.shr (.v 104) 21)), -- 1540: carry[4] = s4 >> 21
  (105, (.add .w64 (.v 105) (.v 134))), -- 1541: s5 += carry[4]
  (104, (.sub .w64 (.v 104) (.shl .w64 (.v 134) 21))), -- 1542: s4 -= carry[4] << 21
  (135, (.shr (.v 105) 21)), -- 1543: carry[5] = s5 >> 21
  (106, (.add .w64 (.v 106) (.v 135))), -- 1544: s6 += carry[5]
  (105, (.sub .w64 (.v 105) (.shl .w64 (.v 135) 21))), -- 1545: s5 -= carry[5] << 21
  (136, (.shr (.v 106) 21)), -- 1546: carry[6] = s6 >> 21
  (107, (.add .w64 (.v 107) (.v 136))), -- 1547: s7 += carry[6]
  (106, (.sub .w64 (.v 106) (.shl .w64 (.v 136) 21))), -- 1548: s6 -= carry[6] << 21
  (137, (.shr (.v 107) 21)), -- 1549: carry[7] = s7 >> 21
  (108, (.add .w64 (.v 108) (.v 137))), -- 1550: s8 += carry[7]
  (107, (.sub .w64 (.v 107) (.shl .w64 (.v 137) 21))), -- 1551: s7 -= carry[7] << 21
  (138, (.shr (.v 108) 21)), -- 1552: carry[8] = s8 >> 21
  (109, (.add .w64 (.v 109) (.v 138))), -- 1553: s9 += carry[8]
  (108, (.sub .w64 (.v 108) (.shl .w64 (.v 138) 21))), -- 1554: s8 -= carry[8] << 21
  (139, (.shr (.v 109) 21)), -- 1555: carry[9] = s9 >> 21
  (110, (.add .w64 (.v 110) (.v 139))), -- 1556: s10 += carry[9]
  (109, (.sub .w64 (.v 109) (.shl .w64 (.v 139) 21))), -- 1557: s9 -= carry[9] << 21
  (140, (.shr (.v 110) 21)), -- 1558: carry[10] = s10 >> 21
  (111, (.add .w64 (.v 111) (.v 140))), -- 1559: s11 += carry[10]
  (110, (.sub .w64 (.v 110) (.shl .w64 (.v 140) 21))), -- 1560: s10 -= carry[10] << 21
  (141, (.shr (.v 111) 21)), -- 1561: carry[11] = s11 >> 21
  (112, (.add .w64 (.v 112) (.v 141))), -- 1562: s12 += carry[11]
  (111, (.sub .w64 (.v 111) (.shl .w64 (.v 141) 21))) -- 1563: s11 -= carry[11] << 21
]

/-- ecc/edwards25519/edwards25519.go:1565-1605 `ScReduce`, the last fold and chain of floor carries. The input bytes are 0-63, `out` 64-95, `s0`-`s23` 100-123, `carry` 130-152. -/
def scReduceLast : Prog := [
  (100, (.add .w64 (.v 100) (.mul .w64 (.v 112) (.k 666643)))), -- 1565: s0 += s12 * 666643
  (101, (.add .w64 (.v 101) (.mul .w64 (.v 112) (.k 470296)))), -- 1566: s1 += s12 * 470296
  (102, (.add .w64 (.v 102) (.mul .w64 (.v 112) (.k 654183)))), -- 1567: s2 += s12 * 654183
  (103, (.sub .w64 (.v 103) (.mul .w64 (.v 112) (.k 997805)))), -- 1568: s3 -= s12 * 997805
  (104, (.add .w64 (.v 104) (.mul .w64 (.v 112) (.k 136657)))), -- 1569: s4 += s12 * 136657
  (105, (.sub .w64 (.v 105) (.mul .w64 (.v 112) (.k 683901)))), -- 1570: s5 -= s12 * 683901
  (112, (.k 0)), -- 1571: s12 = 0
  (130, (.shr (.v 100) 21)), -- 1573: carry[0] = s0 >> 21
  (101, (.add .w64 (.v 101) (.v 130))), -- 1574: s1 += carry[0]
  (100, (.sub .w64 (.v 100) (.shl .w64 (.v 130) 21))), -- 1575: s0 -= carry[0] << 21
  (131, (.shr (.v 101) 21)), -- 1576: carry[1] = s1 >> 21
  (102, (.add .w64 (.v 102) (.v 131))), -- 1577: s2 += carry[1]
  (101, (.sub .w64 (.v 101) (.shl .w64 (.v 131) 21))), -- 1578: s1 -= carry[1] << 21
  (132, (.shr (.v 102) 21)), -- 1579: carry[2] = s2 >> 21
  (103, (.add .w64 (.v 103) (.v 132))), -- 1580: s3 += carry[2]
  (102, (.sub .w64 (.v 102) (.shl .w64 (.v 132) 21))), -- 1581: s2 -= carry[2] << 21
  (133, (.shr (.v 103) 21)), -- 1582: carry[3] = s3 >> 21
  (104, (.add .w64 (.v 104) (.v 133))), -- 1583: s4 += carry[3]
  (103, (.sub .w64 (.v 103) (.shl .w64 (.v 133) 21))), -- 1584: s3 -= carry[3] << 21
  (134, (.shr (.v 104) 21)), -- 1585: carry[4] = s4 >> 21
  (105, (.add .w64 (.v 105) (.v 134))), -- 1586: s5 += carry[4]
  (104, (.sub .w64 (.v 104) (.shl .w64 (.v 134) 21))), -- 1587: s4 -= carry[4] << 21
  (135, (.shr (.v 105) 21)), -- 1588: carry[5] = s5 >> 21
  (106, (.add .w64 (.v 106) (.v 135))), -- 1589: s6 += carry[5]
  (105, (.sub .w64 (.v 105) (.shl .w64 (.v 135) 21))), -- 1590: s5 -= carry[5] << 21
  (136, (.shr (.v 106) 21)), -- 1591: carry[6] = s6 >> 21
  (107, (.add .w64 (.v 107) (.v 136))), -- 1592: s7 += carry[6]
  (106, (.sub .w64 (.v 106) (.shl .w64 (.v 136) 21))), -- 1593: s6 -= carry[6] << 21
  (137, (.shr (.v 107) 21)), -- 1594: carry[7] = s7 >> 21
  (108, (.add .w64 (.v 108) (.v 137))), -- 1595: s8 += carry[7]
  (107, (.sub .w64 (.v 107) (.shl .w64 (.v 137) 21))), -- 1596: s7 -= carry[7] << 21
  (138, (.shr (.v 108) 21)), -- 1597: carry[8] = s8 >> 21
  (109, (.add .w64 (.v 109) (.v 138))), -- 1598: s9 += carry[8]
  (108, (.sub .w64 (.v 108) (.shl .w64 (.v 138) 21))), -- 1599: s8 -= carry[8] << 21
  (139, (.shr (.v 109) 21)), -- 1600: carry[9] = s9 >> 21
  (110, (.add .w64 (.v 110) (.v 139))), -- 1601: s10 += carry[9]
  (109, (.sub .w64 (.v 109) (.shl .w64 (.v 139) 21))), -- 1602: s9 -= carry[9] << 21
  (140, (.shr (.v 110) 21)), -- 1603: carry[10] = s10 >> 21
  (111, (.add .w64 (.v 111) (.v 140))), -- 1604: s11 += carry[10]
  (110, (.sub .w64 (.v 110) (.shl .w64 (.v 140) 21))) -- 1605: s10 -= carry[10] << 21
]

/-- ecc/edwards25519/edwards25519.go:1607-1638 `ScReduce`, the bytes. The input bytes are 0-63, `out` 64-95, `s0`-`s23` 100-123, `carry` 130-152. -/
def scReducePack : Prog := [
  (64, (.cast .w8 (.shr (.v 100) 0))), -- 1607: out[0] = byte(s0 >> 0)
  (65, (.cast .w8 (.shr (.v 100) 8))), -- 1608: out[1] = byte(s0 >> 8)
  (66, (.cast .w8 (.or .w64 (.shr (.v 100) 16) (.shl .w64 (.v 101) 5)))), -- 1609: out[2] = byte((s0 >> 16) | (s1 << 5))
  (67, (.cast .w8 (.shr (.v 101) 3))), -- 1610: out[3] = byte(s1 >> 3)
  (68, (.cast .w8 (.shr (.v 101) 11))), -- 1611: out[4] = byte(s1 >> 11)
  (69, (.cast .w8 (.or .w64 (.shr (.v 101) 19) (.shl .w64 (.v 102) 2)))), -- 1612: out[5] = byte((s1 >> 19) | (s2 << 2))
  (70, (.cast .w8 (.shr (.v 102) 6))), -- 1613: out[6] = byte(s2 >> 6)
  (71, (.cast .w8 (.or .w64 (.shr (.v 102) 14) (.shl .w64 (.v 103) 7)))), -- 1614: out[7] = byte((s2 >> 14) | (s3 << 7))
  (72, (.cast .w8 (.shr (.v 103) 1))), -- 1615: out[8] = byte(s3 >> 1)
  (73, (.cast .w8 (.shr (.v 103) 9))), -- 1616: out[9] = byte(s3 >> 9)
  (74, (.cast .w8 (.or .w64 (.shr (.v 103) 17) (.shl .w64 (.v 104) 4)))), -- 1617: out[10] = byte((s3 >> 17) | (s4 << 4))
  (75, (.cast .w8 (.shr (.v 104) 4))), -- 1618: out[11] = byte(s4 >> 4)
  (76, (.cast .w8 (.shr (.v 104) 12))), -- 1619: out[12] = byte(s4 >> 12)
  (77, (.cast .w8 (.or .w64 (.shr (.v 104) 20) (.shl .w64 (.v 105) 1)))), -- 1620: out[13] = byte((s4 >> 20) | (s5 << 1))
  (78, (.cast .w8 (.shr (.v 105) 7))), -- 1621: out[14] = byte(s5 >> 7)
  (79, (.cast .w8 (.or .w64 (.shr (.v 105) 15) (.shl .w64 (.v 106) 6)))), -- 1622: out[15] = byte((s5 >> 15) | (s6 << 6))
  (80, (.cast .w8 (.shr (.v 106) 2))), -- 1623: out[16] = byte(s6 >> 2)
  (81, (.cast .w8 (.shr (.v 106) 10))), -- 1624: out[17] = byte(s6 >> 10)
  (82, (.cast .w8 (.or .w64 (.shr (.v 106) 18) (.shl .w64 (.v 107) 3)))), -- 1625: out[18] = byte((s6 >> 18) | (s7 << 3))
  (83, (.cast .w8 (.shr (.v 107) 5))), -- 1626: out[19] = byte(s7 >> 5)
  (84, (.cast .w8 (.shr (.v 107) 13))), -- 1627: out[20] = byte(s7 >> 13)
  (85, (.cast .w8 (.shr (.v 108) 0))), -- 1628: out[21] = byte(s8 >> 0)
  (86, (.cast .w8 (.shr (.v 108) 8))), -- 1629: out[22] = byte(s8 >> 8)
  (87, (.cast .w8 (.or .w64 (.shr (.v 108) 16) (.shl .w64 (.v 109) 5)))), -- 1630: out[23] = byte((s8 >> 16) | (s9 << 5))
  (88, (.cast .w8 (.shr (.v 109) 3))), -- 1631: out[24] = byte(s9 >> 3)
  (89, (.cast .w8 (.shr (.v 109) 11))), -- 1632: out[25] = byte(s9 >> 11)
  (90, (.cast .w8 (.or .w64 (.shr (.v 109) 19) (.shl .w64 (.v 110) 2)))), -- 1633: out[26] = byte((s9 >> 19) | (s10 << 2))
  (91, (.cast .w8 (.shr (.v 110) 6))), -- 1634: out[27] = byte(s10 >> 6)
  (92, (.cast .w8 (.or .w64 (.shr (.v 110) 14) (.shl .w64 (.v 111) 7)))), -- 1635: out[28] = byte((s10 >> 14) | (s11 << 7))
  (93, (.cast .w8 (.shr (.v 111) 1))), -- 1636: out[29] = byte(s11 >> 1)
  (94, (.cast .w8 (.shr (.v 111) 9))), -- 1637: out[30] = byte(s11 >> 9)
  (95, (.cast .w8 (.shr (.v 111) 17))) -- 1638: out[31] = byte(s11 >> 17)
]

/-- ecc/edwards25519/edwards25519.go:893-928 `ScMulAdd`, the limbs. Bytes of `a` are 0-31, of `b` 32-63, of `c` 160-191, of the result 64-95; `a0`-`a11` 200-211, `b0`-`b11` 212-223, `c0`-`c11` 224-235, `s0`-`s23` 100-123, `carry` 130-152. -/
def scMulAddLoad : Prog := [
  (200, (.and .w64 (.k 2097151) (.or .w64 (.or .w64 (.cast .w64 (.v 0)) (.shl .w64 (.cast .w64 (.v 1)) 8)) (.shl .w64 (.cast .w64 (.v 2)) 16)))), -- 893: a0 := 2097151 & load3(a[:])
  (201, (.and .w64 (.k 2097151) (.shr (.or .w64 (.or .w64 (.or .w64 (.cast .w64 (.v 2)) (.shl .w64 (.cast .w64 (.v 3)) 8)) (.shl .w64 (.cast .w64 (.v 4)) 16)) (.shl .w64 (.cast .w64 (.v 5)) 24)) 5))), -- 894: a1 := 2097151 & (load4(a[2:]) >> 5)
  (202, (.and .w64 (.k 2097151) (.shr (.or .w64 (.or .w64 (.cast .w64 (.v 5)) (.shl .w64 (.cast .w64 (.v 6)) 8)) (.shl .w64 (.cast .w64 (.v 7)) 16)) 2))), -- 895: a2 := 2097151 & (load3(a[5:]) >> 2)
  (203, (.and .w64 (.k 2097151) (.shr (.or .w64 (.or .w64 (.or .w64 (.cast .w64 (.v 7)) (.shl .w64 (.cast .w64 (.v 8)) 8)) (.shl .w64 (.cast .w64 (.v 9)) 16)) (.shl .w64 (.cast .w64 (.v 10)) 24)) 7))), -- 896: a3 := 2097151 & (load4(a[7:]) >> 7)
  (204, (.and .w64 (.k 2097151) (.shr (.or .w64 (.or .w64 (.or .w64 (.cast .w64 (.v 10)) (.shl .w64 (.cast .w64 (.v 11)) 8)) (.shl .w64 (.cast .w64 (.v 12)) 16)) (.shl .w64 (.cast .w64 (.v 13)) 24)) 4))), -- 897: a4 := 2097151 & (load4(a[10:]) >> 4)
  (205, (.and .w64 (.k 2097151) (.shr (.or .w64 (.or .w64 (.cast .w64 (.v 13)) (.shl .w64 (.cast .w64 (.v 14)) 8)) (.shl .w64 (.cast .w64 (.v 15)) 16)) 1))), -- 898: a5 := 2097151 & (load3(a[13:]) >> 1)
  (206, (.and .w64 (.k 2097151) (.shr (.or .w64 (.or .w64 (.or .w64 (.cast .w64 (.v 15)) (.shl .w64 (.cast .w64 (.v 16)) 8)) (.shl .w64 (.cast .w64 (.v 17)) 16)) (.shl .w64 (.cast .w64 (.v 18)) 24)) 6))), -- 899: a6 := 2097151 & (load4(a[15:]) >> 6)
  (207, (.and .w64 (.k 2097151) (.shr (.or .w64 (.or .w64 (.cast .w64 (.v 18)) (.shl .w64 (.cast .w64 (.v 19)) 8)) (.shl .w64 (.cast .w64 (.v 20)) 16)) 3))), -- 900: a7 := 2097151 & (load3(a[18:]) >> 3)
  (208, (.and .w64 (.k 2097151) (.or .w64 (.or .w64 (.cast .w64 (.v 21)) (.shl .w64 (.cast .w64 (.v 22)) 8)) (.shl .w64 (.cast .w64 (.v 23)) 16)))), -- 901: a8 := 2097151 & load3(a[21:])
  (209, (.and .w64 (.k 2097151) (.shr (.or .w64 (.or .w64 (.or .w64 (.cast .w64 (.v 23)) (.shl .w64 (.cast .w64 (.v 24)) 8)) (.shl .w64 (.cast .w64 (.v 25)) 16)) (.shl .w64 (.cast .w64 (.v 26)) 24)) 5))), -- 902: a9 := 2097151 & (load4(a[23:]) >> 5)
  (210, (.and .w64 (.k 2097151) (.shr (.or .w64 (.or .w64 (.cast .w64 (.v 26)) (.shl .w64 (.cast .w64 (.v 27)) 8)) (.shl .w64 (.cast .w64 (.v 28)) 16)) 2))), -- 903: a10 := 2097151 & (load3(a[26:]) >> 2)
  (211, (.shr (.or .w64 (.or .w64 (.or .w64 (.cast .w64 (.v 28)) (.shl .w64 (.cast .w64 (.v 29)) 8)) (.shl .w64 (.cast .w64 (.v 30)) 16)) (.shl .w64 (.cast .w64 (.v 31)) 24)) 7)), -- 904: a11 := (load4(a[28:]) >> 7)
  (212, (.and .w64 (.k 2097151) (.or .w64 (.or .w64 (.cast .w64 (.v 32)) (.shl .w64 (.cast .w64 (.v 33)) 8)) (.shl .w64 (.cast .w64 (.v 34)) 16)))), -- 905: b0 := 2097151 & load3(b[:])
  (213, (.and .w64 (.k 2097151) (.shr (.or .w64 (.or .w64 (.or .w64 (.cast .w64 (.v 34)) (.shl .w64 (.cast .w64 (.v 35)) 8)) (.shl .w64 (.cast .w64 (.v 36)) 16)) (.shl .w64 (.cast .w64 (.v 37)) 24)) 5))), -- 906: b1 := 2097151 & (load4(b[2:]) >> 5)
  (214, (.and .w64 (.k 2097151) (.shr (.or .w64 (.or .w64 (.cast .w64 (.v 37)) (.shl .w64 (.cast .w64 (.v 38)) 8)) (.shl .w64 (.cast .w64 (.v 39)) 16)) 2))), -- 907: b2 := 2097151 & (load3(b[5:]) >> 2)
  (215, (.and .w64 (.k 2097151) (.shr (.or .w64 (.or .w64 (.or .w64 (.cast .w64 (.v 39)) (.shl .w64 (.cast .w64 (.v 40)) 8)) (.shl .w64 (.cast .w64 (.v 41)) 16)) (.shl .w64 (.cast .w64 (.v 42)) 24)) 7))), -- 908: b3 := 2097151 & (load4(b[7:]) >> 7)
  (216, (.and .w64 (.k 2097151) (.shr (.or .w64 (.or .w64 (.or .w64 (.cast .w64 (.v 42)) (.shl .w64 (.cast .w64 (.v 43)) 8)) (.shl .w64 (.cast .w64 (.v 44)) 16)) (.shl .w64 (.cast .w64 (.v 45)) 24)) 4))), -- 909: b4 := 2097151 & (load4(b[10:]) >> 4)
  (217, (.and .w64 (.k 2097151) (.shr (.or .w64 (.or .w64 (.cast .w64 (.v 45)) (.shl .w64 (.cast .w64 (.v 46)) 8)) (.shl .w64 (.cast .w64 (.v 47)) 16)) 1))), -- 910: b5 := 2097151 & (load3(b[13:]) >> 1)
  (218, (.and .w64 (.k 2097151) (.shr (.or .w64 (.or .w64 (.or .w64 (.cast .w64 (.v 47)) (.shl .w64 (.cast .w64 (.v 48)) 8)) (.shl .w64 (.cast .w64 (.v 49)) 16)) (.shl .w64 (.cast .w64 (.v 50)) 24)) 6))), -- 911: b6 := 2097151 & (load4(b[15:]) >> 6)
  (219, (.and .w64 (.k 2097151) (.shr (.or .w64 (.or .w64 (.cast .w64 (.v 50)) (.shl .w64 (.cast .w64 (.v 51)) 8)) (.shl .w64 (.cast .w64 (.v 52)) 16)) 3))), -- 912: b7 := 2097151 & (load3(b[18:]) >> 3)
  (220, (.and .w64 (.k 2097151) (.or .w64 (.or .w64 (.cast .w64 (.v 53)) (.shl .w64 (.cast .w64 (.v 54)) 8)) (.shl .w64 (.cast .w64 (.v 55)) 16)))), -- 913: b8 := 2097151 & load3(b[21:])
  (221, (.and .w64 (.k 2097151) (.shr (.or .w64 (.or .w64 (.or .w64 (.cast .w64 (.v 55)) (.shl .w64 (.cast .w64 (.v 56)) 8)) (.shl .w64 (.cast .w64 (.v 57)) 16)) (.shl .w64 (.cast .w64 (.v 58)) 24)) 5))), -- 914: b9 := 2097151 & (load4(b[23:]) >> 5)
  (222, (.and .w64 (.k 2097151) (.shr (.or .w64 (.or .w64 (.cast .w64 (.v 58)) (.shl .w64 (.cast .w64 (.v 59)) 8)) (.shl .w64 (.cast .w64 (.v 60)) 16)) 2))), -- 915: b10 := 2097151 & (load3(b[26:]) >> 2)
  (223, (.shr (.or .w64 (.or .w64 (.or .w64 (.cast .w64 (.v 60)) (.shl .w64 (.cast .w64 (.v 61)) 8)) (.shl .w64 (.cast .w64 (.v 62)) 16)) (.shl .w64 (.cast .w64 (.v 63)) 24)) 7)), -- 916: b11 := (load4(b[28:]) >> 7)
  (224, (.and .w64 (.k 2097151) (.or .w64 (.or .w64 (.cast .w64 (.v 160)) (.shl .w64 (.cast .w64 (.v 161)) 8)) (.shl .w64 (.cast .w64 (.v 162)) 16)))), -- 917: c0 := 2097151 & load3(c[:])
  (225, (.and .w64 (.k 2097151) (.shr (.or .w64 (.or .w64 (.or .w64 (.cast .w64 (.v 162)) (.shl .w64 (.cast .w64 (.v 163)) 8)) (.shl .w64 (.cast .w64 (.v 164)) 16)) (.shl .w64 (.cast .w64 (.v 165)) 24)) 5))), -- 918: c1 := 2097151 & (load4(c[2:]) >> 5)
  (226, (.and .w64 (.k 2097151) (.shr (.or .w64 (.or .w64 (.cast .w64 (.v 165)) (.shl .w64 (.cast .w64 (.v 166)) 8)) (.shl .w64 (.cast .w64 (.v 167)) 16)) 2))), -- 919: c2 := 2097151 & (load3(c[5:]) >> 2)
  (227, (.and .w64 (.k 2097151) (.shr (.or .w64 (.or .w64 (.or .w64 (.cast .w64 (.v 167)) (.shl .w64 (.cast .w64 (.v 168)) 8)) (.shl .w64 (.cast .w64 (.v 169)) 16)) (.shl .w64 (.cast .w64 (.v 170)) 24)) 7))), -- 920: c3 := 2097151 & (load4(c[7:]) >> 7)
  (228, (.and .w64 (.k 2097151) (.shr (.or .w64 (.or .w64 (.or .w64 (.cast .w64 (.v 170)) (.shl .w64 (.cast .w64 (.v 171)) 8)) (.shl .w64 (.cast .w64 (.v 172)) 16)) (.shl .w64 (.cast .w64 (.v 173)) 24)) 4))), -- 921: c4 := 2097151 & (load4(c[10:]) >> 4)
  (229, (.and .w64 (.k 2097151) (.shr (.or .w64 (.or .w64 (.cast .w64 (.v 173)) (.shl .w64 (.cast .w64 (.v 174)) 8)) (.shl .w64 (.cast .w64 (.v 175)) 16)) 1))), -- 922: c5 := 2097151 & (load3(c[13:]) >> 1)
  (230, (.and .w64 (.k 2097151) (.shr (.or .w64 (.or .w64 (.or .w64 (.cast .w64 (.v 175)) (.shl .w64 (.cast .w64 (.v 176)) 8)) (.shl .w64 (.cast .w64 (.v 177)) 16)) (.shl .w64 (.cast .w64 (.v 178)) 24)) 6))), -- 923: c6 := 2097151 & (load4(c[15:]) >> 6)
  (231, (.and .w64 (.k 2097151) (.shr (.or .w64 (.or .w64 (.cast .w64 (.v 178)) (.shl .w64 (.cast .w64 (.v 179)) 8)) (.shl .w64 (.cast .w64 (.v 180)) 16)) 3))), -- 924: c7 := 2097151 & (load3(c[18:]) >> 3)
  (232, (.and .w64 (.k 2097151) (.or .w64 (.or .w64 (.cast .w64 (.v 181)) (.shl .w64 (.cast .w64 (.v 182)) 8)) (.shl .w64 (.cast .w64 (.v 183)) 16)))), -- 925: c8 := 2097151 & load3(c[21:])
  (233, (.and .w64 (.k 2097151) (.shr (.or .w64 (.or .w64 (.or .w64 (.cast .w64 (.v 183)) (.shl .w64 (.cast .w64 (.v 184)) 8)) (.shl .w64 (.cast .w64 (.v 185)) 16)) (.shl .w64 (.cast .w64 (.v 186)) 24)) 5))), -- 926: c9 := 2097151 & (load4(c[23:]) >> 5)
  (234, (.and .w64 (.k 2097151) (.shr (.or .w64 (.or .w64 (.cast .w64 (.v 186)) (.shl .w64 (.cast .w64 (.v 187)) 8)) (.shl .w64 (.cast .w64 (.v 188)) 16)) 2))), -- 927: c10 := 2097151 & (load3(c[26:]) >> 2)
  (235, (.shr (.or .w64 (.or .w64 (.or .w64 (.cast .w64 (.v 188)) (.shl .w64 (.cast .w64 (.v 189)) 8)) (.shl .w64 (.cast .w64 (.v 190)) 16)) (.shl .w64 (.cast .w64 (.v 191)) 24)) 7)) -- 928: c11 := (load4(c[28:]) >> 7)
]

/-- ecc/edwards25519/edwards25519.go:931-954 `ScMulAdd`, the products. Bytes of `a` are 0-31, of `b` 32-63, of `c` 160-191, of the result 64-95; `a0`-`a11` 200-211, `b0`-`b11` 212-223, `c0`-`c11` 224-235, `s0`-`s23` 100-123, `carry` 130-152. -/
def scMulAddProd : Prog := [
  (100, (.add .w64 (.v 224) (.mul .w64 (.v 200) (.v 212)))), -- 931: s0 := c0 + a0*b0
  (101, (.add .w64 (.add .w64 (.v 225) (.mul .w64 (.v 200) (.v 213))) (.mul .w64 (.v 201) (.v 212)))), -- 932: s1 := c1 + a0*b1 + a1*b0
  (102, (.add .w64 (.add .w64 (.add .w64 (.v 226) (.mul .w64 (.v 200) (.v 214))) (.mul .w64 (.v 201) (.v 213))) (.mul .w64 (.v 202) (.v 212)))), -- 933: s2 := c2 + a0*b2 + a1*b1 + a2*b0
  (103, (.add .w64 (.add .w64 (.add .w64 (.add .w64 (.v 227) (.mul .w64 (.v 200) (.v 215))) (.mul .w64 (.v 201) (.v 214))) (.mul .w64 (.v 202) (.v 213))) (.mul .w64 (.v 203) (.v 212)))), -- 934: s3 := c3 + a0*b3 + a1*b2 + a2*b1 + a3*b0
  (104, (.add .w64 (.add .w64 (.add .w64 (.add .w64 (.add .w64 (.v 228) (.mul .w64 (.v 200) (.v 216))) (.mul .w64 (.v 201) (.v 215))) (.mul .w64 (.v 202) (.v 214))) (.mul .w64 (.v 203) (.v 213))) (.mul .w64 (.v 204) (.v 212)))), -- 935: s4 := c4 + a0*b4 + a1*b3 + a2*b2 + a3*b1 + a4*b0
  (105, (.add .w64 (.add .w64 (.add .w64 (.add .w64 (.add .w64 (.add .w64 (.v 229) (.mul .w64 (.v 200) (.v 217))) (.mul .w64 (.v 201) (.v 216))) (.mul .w64 (.v 202) (.v 215))) (.mul .w64 (.v 203) (.v 214))) (.mul .w64 (.v 204) (.v 213))) (.mul .w64 (.v 205) (.v 212)))), -- 936: s5 := c5 + a0*b5 + a1*b4 + a2*b3 + a3*b2 + a4*b1 + a5*b0
  (106, (.add .w64 (.add .w64 (.add .w64 (.add .w64 (.add .w64 (.add .w64 (.add .w64 (.v 230) (.mul .w64 (.v 200) (.v 218))) (.mul .w64 (.v 201) (.v 217))) (.mul .w64 (.v 202) (.v 216))) (.mul .w64 (.v 203) (.v 215))) (.mul .w64 (.v 204) (.v 214))) (.mul .w64 (.v 205) (.v 213))) (.mul .w64 (.v 206) (.v 212)))), -- 937: s6 := c6 + a0*b6 + a1*b5 + a2*b4 + a3*b3 + a4*b2 + a5*b1 + a6*b0
  (107, (.add .w64 (.add .w64 (.add .w64 (.add .w64 (.add .w64 (.add .w64 (.add .w64 (.add .w64 (.v 231) (.mul .w64 (.v 200) (.v 219))) (.mul .w64 (.v 201) (.v 218))) (.mul .w64 (.v 202) (.v 217))) (.mul .w64 (.v 203) (.v 216))) (.mul .w64 (.v 204) (.v 215))) (.mul .w64 (.v 205) (.v 214))) (.mul .w64 (.v 206) (.v 213))) (.mul .w64 (.v 207) (.v 212)))), -- 938: s7 := c7 + a0*b7 + a1*b6 + a2*b5 + a3*b4 + a4*b3 + a5*b2 + a6*b1 + a7*b0
  (108, (.add .w64 (.add .w64 (.add .w64 (.add .w64 (.add .w64 (.add .w64 (.add .w64 (.add .w64 (.add .w64 (.v 232) (.mul .w64 (.v 200) (.v 220))) (.mul .w64 (.v 201) (.v 219))) (.mul .w64 (.v 202) (.v 218))) (.mul .w64 (.v 203) (.v 217))) (.mul .w64 (.v 204) (.v 216))) (.mul .w64 (.v 205) (.v 215))) (.mul .w64 (.v 206) (.v 214))) (.mul .w64 (.v 207) (.v 213))) (.mul .w64 (.v 208) (.v 212)))), -- 939: s8 := c8 + a0*b8 + a1*b7 + a2*b6 + a3*b5 + a4*b4 + a5*b3 + a6*b2 + a7*b1 + a8*b0
  (109, (.add .w64 (.add .w64 (.add .w64 (.add .w64 (.add .w64 (.add .w64 (.add .w64 (.add .w64 (.add .w64 (.add .w64 (.v 233) (.mul .w64 (.v 200) (.v 221))) (.mul .w64 (.v 201) (.v 220))) (.mul .w64 (.v 202) (.v 219))) (.mul .w64 (.v 203) (.v 218))) (.mul .w64 (.v 204) (.v 217))) (.mul .w64 (.v 205) (.v 216))) (.mul .w64 (.v 206) (.v 215))) (.mul .w64 (.v 207) (.v 214))) (.mul .w64 (.v 208) (.v 213))) (.mul .w64 (.v 209) (.v 212)))), -- 940: s9 := c9 + a0*b9 + a1*b8 + a2*b7 + a3*b6 + a4*b5 + a5*b4 + a6*b3 + a7*b2 + a8*b1 + a9*b0
  (110, (.add .w64 (.add .w64 (.add .w64 (.add .w64 (.add .w64 (.add .w64 (.add .w64 (.add .w64 (.add .w64 (.add .w64 (.add .w64 (.v 234) (.mul .w64 (.v 200) (.v 222))) (.mul .w64 (.v 201) (.v 221))) (.mul .w64 (.v 202) (.v 220))) (.mul .w64 (.v 203) (.v 219))) (.mul .w64 (.v 204) (.v 218))) (.mul .w64 (.v 205) (.v 217))) (.mul .w64 (.v 206) (.v 216))) (.mul .w64 (.v 207) (.v 215))) (.mul .w64 (.v 208) (.v 214))) (.mul .w64 (.v 209) (.v 213))) (.mul .w64 (.v 210) (.v 212)))), -- 941: s10 := c10 + a0*b10 + a1*b9 + a2*b8 + a3*b7 + a4*b6 + a5*b5 + a6*b4 + a7*b3 + a8*b2 + a9*b1 + a10*b0
  (111, (.add .w64 (.add .w64 (.add .w64 (.add .w64 (.add .w64 (.add .w64 (.add .w64 (.add .w64 (.add .w64 (.add .w64 (.add .w64 (.add .w64 (.v 235) (.mul .w64 (.v 200) (.v 223))) (.mul .w64 (.v 201) (.v 222))) (.mul .w64 (.v 202) (.v 221))) (.mul .w64 (.v 203) (.v 220))) (.mul .w64 (.v 204) (.v 219))) (.mul .w64 (.v 205) (.v 218))) (.mul .w64 (.v 206) (.v 217))) (.mul .w64 (.v 207) (.v 216))) (.mul .w64 (.v 208) (.v 215))) (.mul .w64 (.v 209) (.v 214))) (.mul .w64 (.v 210) (.v 213))) (.mul .w64 (.v 211) (.v 212)))), -- 942: s11 := c11 + a0*b11 + a1*b10 + a2*b9 + a3*b8 + a4*b7 + a5*b6 + a6*b5 + a7*b4 + a8*b3 + a9*b2 + a10*b1 + a11*b0
  (112, (.add .w64 (.add .w64 (.add .w64 (.add .w64 (.add .w64 (.add .w64 (.add .w64 (.add .w64 (.add .w64 (.add .w64 (.mul .w64 (.v 201) (.v 223)) (.mul .w64 (.v 202) (.v 222))) (.mul .w64 (.v 203) (.v 221))) (.mul .w64 (.v 204) (.v 220))) (.mul .w64 (.v 205) (.v 219))) (.mul .w64 (.v 206) (.v 218))) (.mul .w64 (.v 207) (.v 217))) (.mul .w64 (.v 208) (.v 216))) (.mul .w64 (.v 209) (.v 215))) (.mul .w64 (.v 210) (.v 214))) (.mul .w64 (.v 211) (.v 213)))), -- 943: s12 := a1*b11 + a2*b10 + a3*b9 + a4*b8 + a5*b7 + a6*b6 + a7*b5 + a8*b4 + a9*b3 + a10*b2 + a11*b1
  (113, (.add .w64 (.add .w64 (.add .w64 (.add .w64 (.add .w64 (.add .w64 (.add .w64 (.add .w64 (.add .w64 (.mul .w64 (.v 202) (.v 223)) (.mul .w64 (.v 203) (.v 222))) (.mul .w64 (.v 204) (.v 221))) (.mul .w64 (.v 205) (.v 220))) (.mul .w64 (.v 206) (.v 219))) (.mul .w64 (.v 207) (.v 218))) (.mul .w64 (.v 208) (.v 217))) (.mul .w64 (.v 209) (.v 216))) (.mul .w64 (.v 210) (.v 215))) (.mul .w64 (.v 211) (.v 214)))), -- 944: s13 := a2*b11 + a3*b10 + a4*b9 + a5*b8 + a6*b7 + a7*b6 + a8*b5 + a9*b4 + a10*b3 + a11*b2
  (114, (.add .w64 (.add .w64 (.add .w64 (.add .w64 (.add .w64 (.add .w64 (.add .w64 (.add .w64 (.mul .w64 (.v 203) (.v 223)) (.mul .w64 (.v 204) (.v 222))) (.mul .w64 (.v 205) (.v 221))) (.mul .w64 (.v 206) (.v 220))) (.mul .w64 (.v 207) (.v 219))) (.mul .w64 (.v 208) (.v 218))) (.mul .w64 (.v 209) (.v 217))) (.mul .w64 (.v 210) (.v 216))) (.mul .w64 (.v 211) (.v 215)))), -- 945: s14 := a3*b11 + a4*b10 + a5*b9 + a6*b8 + a7*b7 + a8*b6 + a9*b5 + a10*b4 + a11*b3
  (115, (.add .w64 (.add .w64 (.add .w64 (.add .w64 (.add .w64 (.add .w64 (.add .w64 (.mul .w64 (.v 204) (.v 223)) (.mul .w64 (.v 205) (.v 222))) (.mul .w64 (.v 206) (.v 221))) (.mul .w64 (.v 207) (.v 220))) (.mul .w64 (.v 208) (.v 219))) (.mul .w64 (.v 209) (.v 218))) (.mul .w64 (.v 210) (.v 217))) (.mul .w64 (.v 211) (.v 216)))), -- 946: s15 := a4*b11 + a5*b10 + a6*b9 + a7*b8 + a8*b7 + a9*b6 + a10*b5 + a11*b4
  (116, (.add .w64 (.add .w64 (.add .w64 (.add .w64 (.add .w64 (.add .w64 (.mul .w64 (.v 205) (.v 223)) (.mul .w64 (.v 206) (.v 222))) (.mul .w64 (.v 207) (.v 221))) (.mul .w64 (.v 208) (.v 220))) (.mul .w64 (.v 209) (.v 219))) (.mul .w64 (.v 210) (.v 218))) (.mul .w64 (.v 211) (.v 217)))), -- 947: s16 := a5*b11 + a6*b10 + a7*b9 + a8*b8 + a9*b7 + a10*b6 + a11*b5
  (117, (.add .w64 (.add .w64 (.add .w64 (.add .w64 (.add .w64 (.mul .w64 (.v 206) (.v 223)) (.mul .w64 (.v 207) (.v 222))) (.mul .w64 (.v 208) (.v 221))) (.mul .w64 (.v 209) (.v 220))) (.mul .w64 (.v 210) (.v 219))) (.mul .w64 (.v 211) (.v 218)))), -- 948: s17 := a6*b11 + a7*b10 + a8*b9 + a9*b8 + a10*b7 + a11*b6
  (118, (.add .w64 (.add .w64 (.add .w64 (.add .w64 (.mul .w64 (.v 207) (.v 223)) (.mul .w64 (.v 208) (.v 222))) (.mul .w64 (.v 209) (.v 221))) (.mul .w64 (.v 210) (.v 220))) (.mul .w64 (.v 211) (.v 219)))), -- 949: s18 := a7*b11 + a8*b10 + a9*b9 + a10*b8 + a11*b7
  (119, (.add .w64 (.add .w64 (.add .w64 (.mul .w64 (.v 208) (.v 223)) (.mul .w64 (.v 209) (.v 222))) (.mul .w64 (.v 210) (.v 221))) (.mul .w64 (.v 211) (.v 220)))), -- 950: s19 := a8*b11 + a9*b10 + a10*b9 + a11*b8
  (120, (.add .w64 (.add .w64 (.mul .w64 (.v 209) (.v 223)) (.mul .w64 (.v 210) (.v 222))) (.mul .w64 (.v 211) (.v 221)))), -- 951: s20 := a9*b11 + a10*b10 + a11*b9
  (121, (.add .w64 (.mul .w64 (.v 210) (.v 223)) (.mul .w64 (.v 211) (.v 222)))), -- 952: s21 := a10*b11 + a11*b10
  (122, (.mul .w64 (.v 211) (.v 223))), -- 953: s22 := a11 * b11
  (123, (.cast .w64 (.k 0))) -- 954: s23 := int64(0)
]

/-- ecc/edwards25519/edwards25519.go:956-1202 `ScMulAdd`, folds and rounded carries. Bytes of `a` are 0-31, of `b` 32-63, of `c` 160-191, of the result 64-95; `a0`-`a11` 200-211, `b0`-`b11` 212-223, `c0`-`c11` 224-235, `s0`-`s23` 100-123, `carry` 130-152. -/
def scMulAddFold : Prog := [
  (130, (.shr (.add .w64 (.v 100) (.k 1048576)) 21)), -- 956: carry[0] = (s0 + (1 << 20)) >> 21
  (101, (.add .w64 (.v 101) (.v 130))), -- 957: s1 += carry[0]
  (100, (.sub .w64 (.v 100) (.shl .w64 (.v 130) 21))), -- 958: s0 -= carry[0] << 21
  (132, (.shr (.add .w64 (.v 102) (.k 1048576)) 21)), -- 959: carry[2] = (s2 + (1 << 20)) >> 21
  (103, (.add .w64 (.v 103) (.v 132))), -- 960: s3 += carry[2]
  (102, (.sub .w64 (.v 102) (.shl .w64 (.v 132) 21))), -- 961: s2 -= carry[2] << 21
  (134, (.shr (.add .w64 (.v 104) (.k 1048576)) 21)), -- 962: carry[4] = (s4 + (1 << 20)) >> 21
  (105, (.add .w64 (.v 105) (.v 134))), -- 963: s5 += carry[4]
  (104, (.sub .w64 (.v 104) (.shl .w64 (.v 134) 21))), -- 964: s4 -= carry[4] << 21
  (136, (.shr (.add .w64 (.v 106) (.k 1048576)) 21)), -- 965: carry[6] = (s6 + (1 << 20)) >> 21
  (107, (.add .w64 (.v 107) (.v 136))), -- 966: s7 += carry[6]
  (106, (.sub .w64 (.v 106) (.shl .w64 (.v 136) 21))), -- 967: s6 -= carry[6] << 21
  (138, (.shr (.add .w64 (.v 108) (.k 1048576)) 21)), -- 968: carry[8] = (s8 + (1 << 20)) >> 21
  (109, (.add .w64 (.v 109) (.v 138))), -- 969: s9 += carry[8]
  (108, (.sub .w64 (.v 108) (.shl .w64 (.v 138) 21))), -- 970: s8 -= carry[8] << 21
  (140, (.shr (.add .w64 (.v 110) (.k 1048576)) 21)), -- 971: carry[10] = (s10 + (1 << 20)) >> 21
  (111, (.add .w64 (.v 111) (.v 140))), -- 972: s11 += carry[10]
  (110, (.sub .w64 (.v 110) (.shl .w64 (.v 140) 21))), -- 973: s10 -= carry[10] << 21
  (142, (.shr (.add .w64 (.v 112) (.k 1048576)) 21)), -- 974: carry[12] = (s12 + (1 << 20)) >> 21
  (113, (.add .w64 (.v 113) (.v 142))), -- 975: s13 += carry[12]
  (112, (.sub .w64 (.v 112) (.shl .w64 (.v 142) 21))), -- 976: s12 -= carry[12] << 21
  (144, (.shr (.add .w64 (.v 114) (.k 1048576)) 21)), -- 977: carry[14] = (s14 + (1 << 20)) >> 21
  (115, (.add .w64 (.v 115) (.v 144))), -- 978: s15 += carry[14]
  (114, (.sub .w64 (.v 114) (.shl .w64 (.v 144) 21))), -- 979: s14 -= carry[14] << 21
  (146, (.shr (.add .w64 (.v 116) (.k 1048576)) 21)), -- 980: carry[16] = (s16 + (1 << 20)) >> 21
  (117, (.add .w64 (.v 117) (.v 146))), -- 981: s17 += carry[16]
  (116, (.sub .w64 (.v 116) (.shl .w64 (.v 146) 21))), -- 982: s16 -= carry[16] << 21
  (148, (.shr (.add .w64 (.v 118) (.k 1048576)) 21)), -- 983: carry[18] = (s18 + (1 << 20)) >> 21
  (119, (.add .w64 (.v 119) (.v 148))), -- 984: s19 += carry[18]
  (118, (.sub .w64 (.v 118) (.shl .w64 (.v 148) 21))), -- 985: s18 -= carry[18] << 21
  (150, (.shr (.add .w64 (.v 120) (.k 1048576)) 21)), -- 986: carry[20] = (s20 + (1 << 20)) >> 21
  (121, (.add .w64 (.v 121) (.v 150))), -- 987: s21 += carry[20]
  (120, (.sub .w64 (.v 120) (.shl .w64 (.v 150) 21))), -- 988: s20 -= carry[20] << 21
  (152, (.shr (.add .w64 (.v 122) (.k 1048576)) 21)), -- 989: carry[22] = (s22 + (1 << 20)) >> 21
  (123, (.add .w64 (.v 123) (.v 152))), -- 990: s23 += carry[22]
  (122, (.sub .w64 (.v 122) (.shl .w64 (.v 152) 21))), -- 991: s22 -= carry[22] << 21
  (131, (.shr (.add .w64 (.v 101) (.k 1048576)) 21)), -- 993: carry[1] = (s1 + (1 << 20)) >> 21
  (102, (.add .w64 (.v 102) (.v 131))), -- 994: s2 += carry[1]
  (101, (.sub .w64 (.v 101) (.shl .w64 (.v 131) 21))), -- 995: s1 -= carry[1] << 21
  (133, (.shr (.add .w64 (.v 103) (.k 1048576)) 21)), -- 996: carry[3] = (s3 + (1 << 20)) >> 21
  (104, (.add .w64 (.v 104) (.v 133))), -- 997: s4 += carry[3]
  (103, (.sub .w64 (.v 103) (.shl .w64 (.v 133) 21))), -- 998: s3 -= carry[3] << 21
  (135, (.shr (.add .w64 (.v 105) (.k 1048576)) 21)), -- 999: carry[5] = (s5 + (1 << 20)) >> 21
  (106, (.add .w64 (.v 106) (.v 135))), -- 1000: s6 += carry[5]
  (105, (.sub .w64 (.v 105) (.shl .w64 (.v 135) 21))), -- 1001: s5 -= carry[5] << 21
  (137, (.shr (.add .w64 (.v 107) (.k 1048576)) 21)), -- 1002: carry[7] = (s7 + (1 << 20)) >> 21
  (108, (.add .w64 (.v 108) (.v 137))), -- 1003: s8 += carry[7]
  (107, (.sub .w64 (.v 107) (.shl .w64 (.v 137) 21))), -- 1004: s7 -= carry[7] << 21
  (139, (.shr (.add .w64 (.v 109) (.k 1048576)) 21)), -- 1005: carry[9] = (s9 + (1 << 20)) >> 21
  (110, (.add .w64 (.v 110) (.v 139))), -- 1006: s10 += carry[9]
  (109, (.sub .w64 (.v 109) (.shl .w64 (.v 139) 21))), -- 1007: s9 -= carry[9] << 21
  (141, (.shr (.add .w64 (.v 111) (.k 1048576)) 21)), -- 1008: carry[11] = (s11 + (1 << 20)) >> 21
  (112, (.add .w64 (.v 112) (.v 141))), -- 1009: s12 += carry[11]
  (111, (.sub .w64 (.v 111) (.shl .w64 (.v 141) 21))), -- 1010: s11 -= carry[11] << 21
  (143, (.shr (.add .w64 (.v 113) (.k 1048576)) 21)), -- 1011: carry[13] = (s13 + (1 << 20)) >> 21
  (114, (.add .w64 (.v 114) (.v 143))), -- 1012: s14 += carry[13]
  (113, (.sub .w64 (.v 113) (.shl .w64 (.v 143) 21))), -- 1013: s13 -= carry[13] << 21
  (145, (.shr (.add .w64 (.v 115) (.k 1048576)) 21)), -- 1014: carry[15] = (s15 + (1 << 20)) >> 21
  (116, (.add .w64 (.v 116) (.v 145))), -- 1015: s16 += carry[15]
  (115, (.sub .w64 (.v 115) (.shl .w64 (.v 145) 21))), -- 1016: s15 -= carry[15] << 21
  (147, (.shr (.add .w64 (.v 117) (.k 1048576)) 21)), -- 1017: carry[17] = (s17 + (1 << 20)) >> 21
  (118, (.add .w64 (.v 118) (.v 147))), -- 1018: s18 += carry[17]
  (117, (.sub .w64 (.v 117) (.shl .w64 (.v 147) 21))), -- 1019: s17 -= carry[17] << 21
  (149, (.shr (.add .w64 (.v 119) (.k 1048576)) 21)), -- 1020: carry[19] = (s19 + (1 << 20)) >> 21
  (120, (.add .w64 (.v 120) (.v 149))), -- 1021: s20 += carry[19]
  (119, (.sub .w64 (.v 119) (.shl .w64 (.v 149) 21))), -- 1022: s19 -= carry[19] << 21
  (151, (.shr (.add .w64 (.v 121) (.k 1048576)) 21)), -- 1023: carry[21] = (s21 + (1 << 20)) >> 21
  (122, (.add .w64 (.v 122) (.v 151))), -- 1024: s22 += carry[21]
  (121, (.sub .w64 (.v 121) (.shl .w64 (.v 151) 21))), -- 1025: s21 -= carry[21] << 21
  (111, (.add .w64 (.v 111) (.mul .w64 (.v 123) (.k 666643)))), -- 1027: s11 += s23 * 666643
  (112, (.add .w64 (.v 112) (.mul .w64 (.v 123) (.k 470296)))), -- 1028: s12 += s23 * 470296
  (113, (.add .w64 (.v 113) (.mul .w64 (.v 123) (.k 654183)))), -- 1029: s13 += s23 * 654183
  (114, (.sub .w64 (.v 114) (.mul .w64 (.v 123) (.k 997805)))), -- 1030: s14 -= s23 * 997805
  (115, (.add .w64 (.v 115) (.mul .w64 (.v 123) (.k 136657)))), -- 1031: s15 += s23 * 136657
  (116, (.sub .w64 (.v 116) (.mul .w64 (.v 123) (.k 683901)))), -- 1032: s16 -= s23 * 683901
  (123, (.k 0)), -- 1033: s23 = 0
  (110, (.add .w64 (.v 110) (.mul .w64 (.v 122) (.k 666643)))), -- 1035: s10 += s22 * 666643
  (111, (.add .w64 (.v 111) (.mul .w64 (.v 122) (.k 470296)))), -- 1036: s11 += s22 * 470296
  (112, (.add .w64 (.v 112) (.mul .w64 (.v 122) (.k 654183)))), -- 1037: s12 += s22 * 654183
  (113, (.sub .w64 (.v 113) (.mul .w64 (.v 122) (.k 997805)))), -- 1038: s13 -= s22 * 997805
  (114, (.add .w64 (.v 114) (.mul .w64 (.v 122) (.k 136657)))), -- 1039: s14 += s22 * 136657
  (115, (.sub .w64 (.v 115) (.mul .w64 (.v 122) (.k 683901)))), -- 1040: s15 -= s22 * 683901
  (122, (.k 0)), -- 1041: s22 = 0
  (109, (.add .w64 (.v 109) (.mul .w64 (.v 121) (.k 666643)))), -- 1043: s9 += s21 * 666643
  (110, (.add .w64 (.v 110) (.mul .w64 (.v 121) (.k 470296)))), -- 1044: s10 += s21 * 470296
  (111, (.add .w64 (.v 111) (.mul .w64 (.v 121) (.k 654183)))), -- 1045: s11 += s21 * 654183
  (112, (.sub .w64 (.v 112) (.mul .w64 (.v 121) (.k 997805)))), -- 1046: s12 -= s21 * 997805
  (113, (.add .w64 (.v 113) (.mul .w64 (.v 121) (.k 136657)))), -- 1047: s13 += s21 * 136657
  (114, (.sub .w64 (.v 114) (.mul .w64 (.v 121) (.k 683901)))), -- 1048: s14 -= s21 * 683901
  (121, (.k 0)), -- 1049: s21 = 0
  (108, (.add .w64 (.v 108) (.mul .w64 (.v 120) (.k 666643)))), -- 1051: s8 += s20 * 666643
  (109, (.add .w64 (.v 109) (.mul .w64 (.v 120) (.k 470296)))), -- 1052: s9 += s20 * 470296
  (110, (.add .w64 (.v 110) (.mul .w64 (.v 120) (.k 654183)))), -- 1053: s10 += s20 * 654183
  (111, (.sub .w64 (.v 111) (.mul .w64 (.v 120) (.k 997805)))), -- 1054: s11 -= s20 * 997805
  (112, (.add .w64 (.v 112) (.mul .w64 (.v 120) (.k 136657)))), -- 1055: s12 += s20 * 136657
  (113, (.sub .w64 (.v 113) (.mul .w64 (.v 120) (.k 683901)))), -- 1056: s13 -= s20 * 683901
  (120, (.k 0)), -- 1057: s20 = 0
  (107, (.add .w64 (.v 107) (.mul .w64 (.v 119) (.k 666643)))), -- 1059: s7 += s19 * 666643
  (108, (.add .w64 (.v 108) (.mul .w64 (.v 119) (.k 470296)))), -- 1060: s8 += s19 * 470296
  (109, (.add .w64 (.v 109) (.mul .w64 (.v 119) (.k 654183)))), -- 1061: s9 += s19 * 654183
  (110, (.sub .w64 (.v 110) (.mul .w64 (.v 119) (.k 997805)))), -- 1062: s10 -= s19 * 997805
  (111, (.add .w64 (.v 111) (.mul .w64 (.v 119) (.k 136657)))), -- 1063: s11 += s19 * 136657
  (112, (.sub .w64 (.v 112) (.mul .w64 (.v 119) (.k 683901)))), -- 1064: s12 -= s19 * 683901
  (119, (.k 0)), -- 1065: s19 = 0
  (106, (.add .w64 (.v 106) (.mul .w64 (.v 118) (.k 666643)))), -- 1067: s6 += s18 * 666643
  (107, (.add .w64 (.v 107) (.mul .w64 (.v 118) (.k 470296)))), -- 1068: s7 += s18 * 470296
  (108, (.add .w64 (.v 108) (.mul .w64 (.v 118) (.k 654183)))), -- 1069: s8 += s18 * 654183
  (109, (.sub .w64 (.v 109) (.mul .w64 (.v 118) (.k 997805)))), -- 1070: s9 -= s18 * 997805
  (110, (.add .w64 (.v 110) (.mul .w64 (.v 118) (.k 136657)))), -- 1071: s10 += s18 * 136657
  (111, (.sub .w64 (.v 111) (.mul .w64 (.v 118) (.k 683901)))), -- 1072: s11 -= s18 * 683901
  (118, (.k 0)), -- 1073: s18 = 0
  (136, (.shr (.add .w64 (.v 106) (.k 1048576)) 21)), -- 1075: carry[6] = (s6 + (1 << 20)) >> 21
  (107, (.add .w64 (.v 107) (.v 136))), -- 1076: s7 += carry[6]
  (106, (.sub .w64 (.v 106) (.shl .w64 (.v 136) 21))), -- 1077: s6 -= carry[6] << 21
  (138, (.shr (.add .w64 (.v 108) (.k 1048576)) 21)), -- 1078: carry[8] = (s8 + (1 << 20)) >> 21
  (109, (.add .w64 (.v 109) (.v 138))), -- 1079: s9 += carry[8]
  (108, (.sub .w64 (.v 108) (.shl .w64 (.v 138) 21))), -- 1080: s8 -= carry[8] << 21
  (140, (.shr (.add .w64 (.v 110) (.k 1048576)) 21)), -- 1081: carry[10] = (s10 + (1 << 20)) >> 21
  (111, (.add .w64 (.v 111) (.v 140))), -- 1082: s11 += carry[10]
  (110, (.sub .w64 (.v 110) (.shl .w64 (.v 140) 21))), -- 1083: s10 -= carry[10] << 21
  (142, (.shr (.add .w64 (.v 112) (.k 1048576)) 21)), -- 1084: carry[12] = (s12 + (1 << 20)) >> 21
  (113, (.add .w64 (.v 113) (.v 142))), -- 1085: s13 += carry[12]
  (112, (.sub .w64 (.v 112) (.shl .w64 (.v 142) 21))), -- 1086: s12 -= carry[12] << 21
  (144, (.shr (.add .w64 (.v 114) (.k 1048576)) 21)), -- 1087: carry[14] = (s14 + (1 << 20)) >> 21
  (115, (.add .w64 (.v 115) (.v 144))), -- 1088: s15 += carry[14]
  (114, (.sub .w64 (.v 114) (.shl .w64 (.v 144) 21))), -- 1089: s14 -= carry[14] << 21
  (146, (.shr (.add .w64 (.v 116) (.k 1048576)) 21)), -- 1090: carry[16] = (s16 + (1 << 20)) >> 21
  (117, (.add .w64 (.v 117) (.v 146))), -- 1091: s17 += carry[16]
  (116, (.sub .w64 (.v 116) (.shl .w64 (.v 146) 21))), -- 1092: s16 -= carry[16] << 21
  (137, (.shr (.add .w64 (.v 107) (.k 1048576)) 21)), -- 1094: carry[7] = (s7 + (1 << 20)) >> 21
  (108, (.add .w64 (.v 108) (.v 137))), -- 1095: s8 += carry[7]
  (107, (.sub .w64 (.v 107) (.shl .w64 (.v 137) 21))), -- 1096: s7 -= carry[7] << 21
  (139, (.shr (.add .w64 (.v 109) (.k 1048576)) 21)), -- 1097: carry[9] = (s9 + (1 << 20)) >> 21
  (110, (.add .w64 (.v 110) (.v 139))), -- 1098: s10 += carry[9]
  (109, (.sub .w64 (.v 109) (.shl .w64 (.v 139) 21))), -- 1099: s9 -= carry[9] << 21
  (141, (.shr (.add .w64 (.v 111) (.k 1048576)) 21)), -- 1100: carry[11] = (s11 + (1 << 20)) >> 21
  (112, (.add .w64 (.v 112) (.v 141))), -- 1101: s12 += carry[11]
  (111, (.sub .w64 (.v 111) (.shl .w64 (.v 141) 21))), -- 1102: s11 -= carry[11] << 21
  (143, (.shr (.add .w64 (.v 113) (.k 1048576)) 21)), -- 1103: carry[13] = (s13 + (1 << 20)) >> 21
  (114, (.add .w64 (.v 114) (.v 143))), -- 1104: s14 += carry[13]
  (113, (.sub .w64 (.v 113) (.shl .w64 (.v 143) 21))), -- 1105: s13 -= carry[13] << 21
  (145, (.shr (.add .w64 (.v 115) (.k 1048576)) 21)), -- 1106: carry[15] = (s15 + (1 << 20)) >> 21
  (116, (.add .w64 (.v 116) (.v 145))), -- 1107: s16 += carry[15]
  (115, (.sub .w64 (.v 115) (.shl .w64 (.v 145) 21))), -- 1108: s15 -= carry[15] << 21
  (105, (.add .w64 (.v 105) (.mul .w64 (.v 117) (.k 666643)))), -- 1110: s5 += s17 * 666643
  (106, (.add .w64 (.v 106) (.mul .w64 (.v 117) (.k 470296)))), -- 1111: s6 += s17 * 470296
  (107, (.add .w64 (.v 107) (.mul .w64 (.v 117) (.k 654183)))), -- 1112: s7 += s17 * 654183
  (108, (.sub .w64 (.v 108) (.mul .w64 (.v 117) (.k 997805)))), -- 1113: s8 -= s17 * 997805
  (109, (.add .w64 (.v 109) (.mul .w64 (.v 117) (.k 136657)))), -- 1114: s9 += s17 * 136657
  (110, (.sub .w64 (.v 110) (.mul .w64 (.v 117) (.k 683901)))), -- 1115: s10 -= s17 * 683901
  (117, (.k 0)), -- 1116: s17 = 0
  (104, (.add .w64 (.v 104) (.mul .w64 (.v 116) (.k 666643)))), -- 1118: s4 += s16 * 666643
  (105, (.add .w64 (.v 105) (.mul .w64 (.v 116) (.k 470296)))), -- 1119: s5 += s16 * 470296
  (106, (.add .w64 (.v 106) (.mul .w64 (.v 116) (.k 654183)))), -- 1120: s6 += s16 * 654183
  (107, (.sub .w64 (.v 107) (.mul .w64 (.v 116) (.k 997805)))), -- 1121: s7 -= s16 * 997805
  (108, (.add .w64 (.v 108) (.mul .w64 (.v 116) (.k 136657)))), -- 1122: s8 += s16 * 136657
  (109, (.sub .w64 (.v 109) (.mul .w64 (.v 116) (.k 683901)))), -- 1123: s9 -= s16 * 683901
  (116, (.k 0)), -- 1124: s16 = 0
  (103, (.add .w64 (.v 103) (.mul .w64 (.v 115) (.k 666643)))), -- 1126: s3 += s15 * 666643
  (104, (.add .w64 (.v 104) (.mul .w64 (.v 115) (.k 470296)))), -- 1127: s4 += s15 * 470296
  (105, (.add .w64 (.v 105) (.mul .w64 (.v 115) (.k 654183)))), -- 1128: s5 += s15 * 654183
  (106, (.sub .w64 (.v 106) (.mul .w64 (.v 115) (.k 997805)))), -- 1129: s6 -= s15 * 997805
  (107, (.add .w64 (.v 107) (.mul .w64 (.v 115) (.k 136657)))), -- 1130: s7 += s15 * 136657
  (108, (.sub .w64 (.v 108) (.mul .w64 (.v 115) (.k 683901)))), -- 1131: s8 -= s15 * 683901
  (115, (.k 0)), -- 1132: s15 = 0
  (102, (.add .w64 (.v 102) (.mul .w64 (.v 114) (.k 666643)))), -- 1134: s2 += s14 * 666643
  (103, (.add .w64 (.v 103) (.mul .w64 (.v 114) (.k 470296)))), -- 1135: s3 += s14 * 470296
  (104, (.add .w64 (.v 104) (.mul .w64 (.v 114) (.k 654183)))), -- 1136: s4 += s14 * 654183
  (105, (.sub .w64 (.v 105) (.mul .w64 (.v 114) (.k 997805)))), -- 1137: s5 -= s14 * 997805
  (106, (.add .w64 (.v 106) (.mul .w64 (.v 114) (.k 136657)))), -- 1138: s6 += s14 * 136657
  (107, (.sub .w64 (.v 107) (.mul .w64 (.v 114) (.k 683901)))), -- 1139: s7 -= s14 * 683901
  (114, (.k 0)), -- 1140: s14 = 0
  (101, (.add .w64 (.v 101) (.mul .w64 (.v 113) (.k 666643)))), -- 1142: s1 += s13 * 666643
  (102, (.add .w64 (.v 102) (.mul .w64 (.v 113) (.k 470296)))), -- 1143: s2 += s13 * 470296
  (103, (.add .w64 (.v 103) (.mul .w64 (.v 113) (.k 654183)))), -- 1144: s3 += s13 * 654183
  (104, (.sub .w64 (.v 104) (.mul .w64 (.v 113) (.k 997805)))), -- 1145: s4 -= s13 * 997805
  (105, (.add .w64 (.v 105) (.mul .w64 (.v 113) (.k 136657)))), -- 1146: s5 += s13 * 136657
  (106, (.sub .w64 (.v 106) (.mul .w64 (.v 113) (.k 683901)))), -- 1147: s6 -= s13 * 683901
  (113, (.k 0)), -- 1148: s13 = 0
  (100, (.add .w64 (.v 100) (.mul .w64 (.v 112) (.k 666643)))), -- 1150: s0 += s12 * 666643
  (101, (.add .w64 (.v 101) (.mul .w64 (.v 112) (.k 470296)))), -- 1151: s1 += s12 * 470296
  (102, (.add .w64 (.v 102) (.mul .w64 (.v 112) (.k 654183)))), -- 1152: s2 += s12 * 654183
  (103, (.sub .w64 (.v 103) (.mul .w64 (.v 112) (.k 997805)))), -- 1153: s3 -= s12 * 997805
  (104, (.add .w64 (.v 104) (.mul .w64 (.v 112) (.k 136657)))), -- 1154: s4 += s12 * 136657
  (105, (.sub .w64 (.v 105) (.mul .w64 (.v 112) (.k 683901)))), -- 1155: s5 -= s12 * 683901
  (112, (.k 0)), -- 1156: s12 = 0
  (130, (.shr (.add .w64 (.v 100) (.k 1048576)) 21)), -- 1158: carry[0] = (s0 + (1 << 20)) >> 21
  (101, (.add .w64 (.v 101) (.v 130))), -- 1159: s1 += carry[0]
  (100, (.sub .w64 (.v 100) (.shl .w64 (.v 130) 21))), -- 1160: s0 -= carry[0] << 21
  (132, (.shr (.add .w64 (.v 102) (.k 1048576)) 21)), -- 1161: carry[2] = (s2 + (1 << 20)) >> 21
  (103, (.add .w64 (.v 103) (.v 132))), -- 1162: s3 += carry[2]
  (102, (.sub .w64 (.v 102) (.shl .w64 (.v 132) 21))), -- 1163: s2 -= carry[2] << 21
  (134, (.shr (.add .w64 (.v 104) (.k 1048576)) 21)), -- 1164: carry[4] = (s4 + (1 << 20)) >> 21
  (105, (.add .w64 (.v 105) (.v 134))), -- 1165: s5 += carry[4]
  (104, (.sub .w64 (.v 104) (.shl .w64 (.v 134) 21))), -- 1166: s4 -= carry[4] << 21
  (136, (.shr (.add .w64 (.v 106) (.k 1048576)) 21)), -- 1167: carry[6] = (s6 + (1 << 20)) >> 21
  (107, (.add .w64 (.v 107) (.v 136))), -- 1168: s7 += carry[6]
  (106, (.sub .w64 (.v 106) (.shl .w64 (.v 136) 21))), -- 1169: s6 -= carry[6] << 21
  (138, (.shr (.add .w64 (.v 108) (.k 1048576)) 21)), -- 1170: carry[8] = (s8 + (1 << 20)) >> 21
  (109, (.add .w64 (.v 109) (.v 138))), -- 1171: s9 += carry[8]
  (108, (.sub .w64 (.v 108) (.shl .w64 (.v 138) 21))), -- 1172: s8 -= carry[8] << 21
  (140, (.shr (.add .w64 (.v 110) (.k 1048576)) 21)), -- 1173: carry[10] = (s10 + (1 << 20)) >> 21
  (111, (.add .w64 (.v 111) (.v 140))), -- 1174: s11 += carry[10]
  (110, (.sub .w64 (.v 110) (.shl .w64 (.v 140) 21))), -- 1175: s10 -= carry[10] << 21
  (131, (.shr (.add .w64 (.v 101) (.k 1048576)) 21)), -- 1177: carry[1] = (s1 + (1 << 20)) >> 21
  (102, (.add .w64 (.v 102) (.v 131))), -- 1178: s2 += carry[1]
  (101, (.sub .w64 (.v 101) (.shl .w64 (.v 131) 21))), -- 1179: s1 -= carry[1] << 21
  (133, (.shr (.add .w64 (.v 103) (.k 1048576)) 21)), -- 1180: carry[3] = (s3 + (1 << 20)) >> 21
  (104, (.add .w64 (.v 104) (.v 133))), -- 1181: s4 += carry[3]
  (103, (.sub .w64 (.v 103) (.shl .w64 (.v 133) 21))), -- 1182: s3 -= carry[3] << 21
  (135, (.shr (.add .w64 (.v 105) (.k 1048576)) 21)), -- 1183: carry[5] = (s5 + (1 << 20)) >> 21
  (106, (.add .w64 (.v 106) (.v 135))), -- 1184: s6 += carry[5]
  (105, (.sub .w64 (.v 105) (.shl .w64 (.v 135) 21))), -- 1185: s5 -= carry[5] << 21
  (137, (.shr (.add .w64 (.v 107) (.k 1048576)) 21)), -- 1186: carry[7] = (s7 + (1 << 20)) >> 21
  (108, (.add .w64 (.v 108) (.v 137))), -- 1187: s8 += carry[7]
  (107, (.sub .w64 (.v 107) (.shl .w64 (.v 137) 21))), -- 1188: s7 -= carry[7] << 21
  (139, (.shr (.add .w64 (.v 109) (.k 1048576)) 21)), -- 1189: carry[9] = (s9 + (1 << 20)) >> 21
  (110, (.add .w64 (.v 110) (.v 139))), -- 1190: s10 += carry[9]
  (109, (.sub .w64 (.v 109) (.shl .w64 (.v 139) 21))), -- 1191: s9 -= carry[9] << 21
  (141, (.shr (.add .w64 (.v 111) (.k 1048576)) 21)), -- 1192: carry[11] = (s11 + (1 << 20)) >> 21
  (112, (.add .w64 (.v 112) (.v 141))), -- 1193: s12 += carry[11]
  (111, (.sub .w64 (.v 111) (.shl .w64 (.v 141) 21))), -- 1194: s11 -= carry[11] << 21
  (100, (.add .w64 (.v 100) (.mul .w64 (.v 112) (.k 666643)))), -- 1196: s0 += s12 * 666643
  (101, (.add .w64 (.v 101) (.mul .w64 (.v 112) (.k 470296)))), -- 1197: s1 += s12 * 470296
  (102, (.add .w64 (.v 102) (.mul .w64 (.v 112) (.k 654183)))), -- 1198: s2 += s12 * 654183
  (103, (.sub .w64 (.v 103) (.mul .w64 (.v 112) (.k 997805)))), -- 1199: s3 -= s12 * 997805
  (104, (.add .w64 (.v 104) (.mul .w64 (.v 112) (.k 136657)))), -- 1200: s4 += s12 * 136657
  (105, (.sub .w64 (.v 105) (.mul .w64 (.v 112) (.k 683901)))), -- 1201: s5 -= s12 * 683901
  (112, (.k 0)) -- 1202: s12 = 0
]

/-- ecc/edwards25519/edwards25519.go:1204-1239 `ScMulAdd`, the first chain of floor carries. Bytes of `a` are 0-31, of `b` 32-63, of `c` 160-191, of the result 64-95; `a0`-`a11` 200-211, `b0`-`b11` 212-223, `c0`-`c11` 224-235, `s0`-`s23` 100-123, `carry` 130-152. -/
def scMulAddFloor : Prog := [
  (130, (.shr (.v 100) 21)), -- 1204: carry[0] = s0 >> 21
  (101, (.add .w64 (.v 101) (.v 130))), -- 1205: s1 += carry[0]
  (100, (.sub .w64 (.v 100) (.shl .w64 (.v 130) 21))), -- 1206: s0 -= carry[0] << 21
  (131, (.shr (.v 101) 21)), -- 1207: carry[1] = s1 >> 21
  (102, (.add .w64 (.v 102) (.v 131))), -- 1208: s2 += carry[1]
  (101, (.sub .w64 (.v 101) (.shl .w64 (.v 131) 21))), -- 1209: s1 -= carry[1] << 21
  (132, (.shr (.v 102) 21)), -- 1210: carry[2] = s2 >> 21
  (103, (.add .w64 (.v 103) (.v 132))), -- 1211: s3 += carry[2]
  (102, (.sub .w64 (.v 102) (.shl .w64 (.v 132) 21))), -- 1212: s2 -= carry[2] << 21
  (133, (.shr (.v 103) 21)), -- 1213: carry[3] = s3 >> 21
  (104, (.add .w64 (.v 104) (.v 133))), -- 1214: s4 += carry[3]
  (103, (.sub .w64 (.v 103) (.shl .w64 (.v 133) 21))), -- 1215: s3 -= carry[3] << 21
  (134, (.shr (.v 104) 21)), -- 1216: carry[4] = s4 >> 21
  (105, (.add .w64 (.v 105) (.v 134))), -- 1217: s5 += carry[4]
  (104, (.sub .w64 (.v 104) (.shl .w64 (.v 134) 21))), -- 1218: s4 -= carry[4] << 21
  (135, (.shr (.v 105) 21)), -- 1219: carry[5] = s5 >> 21
  (106, (.add .w64 (.v 106) (.v 135))), -- 1220: s6 += carry[5]
  (105, (.sub .w64 (.v 105) (.shl .w64 (.v 135) 21))), -- 1221: s5 -= carry[5] << 21
  (136, (.shr (.v 106) 21)), -- 1222: carry[6] = s6 >> 21
  (107, (.add .w64 (.v 107) (.v 136))), -- 1223: s7 += carry[6]
  (106, (.sub .w64 (.v 106) (.shl .w64 (.v 136) 21))), -- 1224: s6 -= carry[6] << 21
  (137, (.shr (.v 107) 21)), -- 1225: carry[7] = s7 >> 21
  (108, (.add .w64 (.v 108) (.v 137))), -- 1226: s8 += carry[7]
  (107, (.sub .w64 (.v 107) (.shl .w64 (.v 137) 21))), -- 1227: s7 -= carry[7] << 21
  (138, (.shr (.v 108) 21)), -- 1228: carry[8] = s8 >> 21
  (109, (.add .w64 (.v 109) (.v 138))), -- 1229: s9 += carry[8]
  (108, (.sub .w64 (.v 108) (.shl .w64 (.v 138) 21))), -- 1230: s8 -= carry[8] << 21
  (139, (.shr (.v 109) 21)), -- 1231: carry[9] = s9 >> 21
  (110, (.add .w64 (.v 110) (.v 139))), -- 1232: s10 += carry[9]
  (109, (.sub .w64 (.v 109) (.shl .w64 (.v 139) 21))), -- 1233: s9 -= carry[9] << 21
  (140, (.shr (.v 110) 21)), -- 1234: carry[10] = s10 >> 21
  (111, (.add .w64 (.v 111) (.v 140))), -- 1235: s11 += carry[10]
  (110, (.sub .w64 (.v 110) (.shl .w64 (.v 140) 21))), -- 1236: s10 -= carry[10] << 21
  (141, (.shr (.v 111) 21)), -- 1237: carry[11] = s11 >> 21
  (112, (.add .w64 (.v 112) (.v 141))), -- 1238: s12 += carry[11]
  (111, (.sub .w64 (.v 111) (.shl .w64 (.v 141) 21))) -- 1239: s11 -= carry[11] << 21
]

/-- ecc/edwards25519/edwards25519.go:1241-1281 `ScMulAdd`, the last fold and chain of floor carries. Bytes of `a` are 0-31, of `b` 32-63, of `c` 160-191, of the result 64-95; `a0`-`a11` 200-211, `b0`-`b11` 212-223, `c0`-`c11` 224-235, `s0`-`s23` 100-123, `carry` 130-152. -/
def scMulAddLast : Prog := [
  (100, (.add .w64 (.v 100) (.mul .w64 (.v 112) (.k 666643)))), -- 1241: s0 += s12 * 666643
  (101, (.add .w64 (.v 101) (.mul .w64 (.v 112) (.k 470296)))), -- 1242: s1 += s12 * 470296
  (102, (.add .w64 (.v 102) (.mul .w64 (.v 112) (.k 654183)))), -- 1243: s2 += s12 * 654183
  (103, (.sub .w64 (.v 103) (.mul .w64 (.v 112) (.k 997805)))), -- 1244: s3 -= s12 * 997805
  (104, (.add .w64 (.v 104) (.mul .w64 (.v 112) (.k 136657)))), -- 1245: s4 += s12 * 136657
  (105, (.sub .w64 (.v 105) (.mul .w64 (.v 112) (.k 683901)))), -- 1246: s5 -= s12 * 683901
  (112, (.k 0)), -- 1247: s12 = 0
  (130, (.shr (.v 100) 21)), -- 1249: carry[0] = s0 >> 21
  (101, (.add .w64 (.v 101) (.v 130))), -- 1250: s1 += carry[0]
  (100, (.sub .w64 (.v 100) (.shl .w64 (.v 130) 21))), -- 1251: s0 -= carry[0] << 21
  (131, (.shr (.v 101) 21)), -- 1252: carry[1] = s1 >> 21
  (102, (.add .w64 (.v 102) (.v 131))), -- 1253: s2 += carry[1]
  (101, (.sub .w64 (.v 101) (.shl .w64 (.v 131) 21))), -- 1254: s1 -= carry[1] << 21
  (132, (.shr (.v 102) 21)), -- 1255: carry[2] = s2 >> 21
  (103, (.add .w64 (.v 103) (.v 132))), -- 1256: s3 += carry[2]
  (102, (.sub .w64 (.v 102) (.shl .w64 (.v 132) 21))), -- 1257: s2 -= carry[2] << 21
  (133, (.shr (.v 103) 21)), -- 1258: carry[3] = s3 >> 21
  (104, (.add .w64 (.v 104) (.v 133))), -- 1259: s4 += carry[3]
  (103, (.sub .w64 (.v 103) (.shl .w64 (.v 133) 21))), -- 1260: s3 -= carry[3] << 21
  (134, (.shr (.v 104) 21)), -- 1261: carry[4] = s4 >> 21
  (105, (.add .w64 (.v 105) (.v 134))), -- 1262: s5 += carry[4]
  (104, (.sub .w64 (.v 104) (.shl .w64 (.v 134) 21))), -- 1263: s4 -= carry[4] << 21
  (135, (.shr (.v 105) 21)), -- 1264: carry[5] = s5 >> 21
  (106, (.add .w64 (.v 106) (.v 135))), -- 1265: s6 += carry[5]
  (105, (.sub .w64 (.v 105) (.shl .w64 (.v 135) 21))), -- 1266: s5 -= carry[5] << 21
  (136, (.shr (.v 106) 21)), -- 1267: carry[6] = s6 >> 21
  (107, (.add .w64 (.v 107) (.v 136))), -- 1268: s7 += carry[6]
  (106, (.sub .w64 (.v 106) (.shl .w64 (.v 136) 21))), -- 1269: s6 -= carry[6] << 21
  (137, (.shr (.v 107) 21)), -- 1270: carry[7] = s7 >> 21
  (108, (.add .w64 (.v 108) (.v 137))), -- 1271: s8 += carry[7]
  (107, (.sub .w64 (.v 107) (.shl .w64 (.v 137) 21))), -- 1272: s7 -= carry[7] << 21
  (138, (.shr (.v 108) 21)), -- 1273: carry[8] = s8 >> 21
  (109, (.add .w64 (.v 109) (.v 138))), -- 1274: s9 += carry[8]
  (108, (.sub .w64 (.v 108) (.shl .w64 (.v 138) 21))), -- 1275: s8 -= carry[8] << 21
  (139, (.shr (.v 109) 21)), -- 1276: carry[9] = s9 >> 21
  (110, (.add .w64 (.v 110) (.v 139))), -- 1277: s10 += carry[9]
  (109, (.sub .w64 (.v 109) (.shl .w64 (.v 139) 21))), -- 1278: s9 -= carry[9] << 21
  (140, (.shr (.v 110) 21)), -- 1279: carry[10] = s10 >> 21
  (111, (.add .w64 (.v 111) (.v 140))), -- 1280: s11 += carry[10]
  (110, (.sub .w64 (.v 110) (.shl .w64 (.v 140) 21))) -- 1281: s10 -= carry[10] << 21
]

/-- ecc/edwards25519/edwards25519.go:1283-1314 `ScMulAdd`, the bytes. Bytes of `a` are 0-31, of `b` 32-63, of `c` 160-191, of the result 64-95; `a0`-`a11` 200-211, `b0`-`b11` 212-223, `c0`-`c11` 224-235, `s0`-`s23` 100-123, `carry` 130-152. -/
def scMulAddPack : Prog := [
  (64, (.cast .w8 (.shr (.v 100) 0))), -- 1283: s[0] = byte(s0 >> 0)
  (65, (.cast .w8 (.shr (.v 100) 8))), -- 1284: s[1] = byte(s0 >> 8)
  (66, (.cast .w8 (.or .w64 (.shr (.v 100) 16) (.shl .w64 (.v 101) 5)))), -- 1285: s[2] = byte((s0 >> 16) | (s1 << 5))
  (67, (.cast .w8 (.shr (.v 101) 3))), -- 1286: s[3] = byte(s1 >> 3)
  (68, (.cast .w8 (.shr (.v 101) 11))), -- 1287: s[4] = byte(s1 >> 11)
  (69, (.cast .w8 (.or .w64 (.shr (.v 101) 19) (.shl .w64 (.v 102) 2)))), -- 1288: s[5] = byte((s1 >> 19) | (s2 << 2))
  (70, (.cast .w8 (.shr (.v 102) 6))), -- 1289: s[6] = byte(s2 >> 6)
  (71, (.cast .w8 (.or .w64 (.shr (.v 102) 14) (.shl .w64 (.v 103) 7)))), -- 1290: s[7] = byte((s2 >> 14) | (s3 << 7))
  (72, (.cast .w8 (.shr (.v 103) 1))), -- 1291: s[8] = byte(s3 >> 1)
  (73, (.cast .w8 (.shr (.v 103) 9))), -- 1292: s[9] = byte(s3 >> 9)
  (74, (.cast .w8 (.or .w64 (.shr (.v 103) 17) (.shl .w64 (.v 104) 4)))), -- 1293: s[10] = byte((s3 >> 17) | (s4 << 4))
  (75, (.cast .w8 (.shr (.v 104) 4))), -- 1294: s[11] = byte(s4 >> 4)
  (76, (.cast .w8 (.shr (.v 104) 12))), -- 1295: s[12] = byte(s4 >> 12)
  (77, (.cast .w8 (.or .w64 (.shr (.v 104) 20) (.shl .w64 (.v 105) 1)))), -- 1296: s[13] = byte((s4 >> 20) | (s5 << 1))
  (78, (.cast .w8 (.shr (.v 105) 7))), -- 1297: s[14] = byte(s5 >> 7)
  (79, (.cast .w8 (.or .w64 (.shr (.v 105) 15) (.shl .w64 (.v 106) 6)))), -- 1298: s[15] = byte((s5 >> 15) | (s6 << 6))
  (80, (.cast .w8 (.shr (.v 106) 2))), -- 1299: s[16] = byte(s6 >> 2)
  (81, (.cast .w8 (.shr (.v 106) 10))), -- 1300: s[17] = byte(s6 >> 10)
  (82, (.cast .w8 (.or .w64 (.shr (.v 106) 18) (.shl .w64 (.v 107) 3)))), -- 1301: s[18] = byte((s6 >> 18) | (s7 << 3))
  (83, (.cast .w8 (.shr (.v 107) 5))), -- 1302: s[19] = byte(s7 >> 5)
  (84, (.cast .w8 (.shr (.v 107) 13))), -- 1303: s[20] = byte(s7 >> 13)
  (85, (.cast .w8 (.shr (.v 108) 0))), -- 1304: s[21] = byte(s8 >> 0)
  (86, (.cast .w8 (.shr (.v 108) 8))), -- 1305: s[22] = byte(s8 >> 8)
  (87, (.cast .w8 (.or .w64 (.shr (.v 108) 16) (.shl .w64 (.v 109) 5)))), -- 1306: s[23] = byte((s8 >> 16) | (s9 << 5))
  (88, (.cast .w8 (.shr (.v 109) 3))), -- 1307: s[24] = byte(s9 >> 3)
  (89, (.cast .w8 (.shr (.v 109) 11))), -- 1308: s[25] = byte(s9 >> 11)
  (90, (.cast .w8 (.or .w64 (.shr (.v 109) 19) (.shl .w64 (.v 110) 2)))), -- 1309: s[26] = byte((s9 >> 19) | (s10 << 2))
  (91, (.cast .w8 (.shr (.v 110) 6))), -- 1310: s[27] = byte(s10 >> 6)
  (92, (.cast .w8 (.or .w64 (.shr (.v 110) 14) (.shl .w64 (.v 111) 7)))), -- 1311: s[28] = byte((s10 >> 14) | (s11 << 7))
  (93, (.cast .w8 (.shr (.v 111) 1))), -- 1312: s[29] = byte(s11 >> 1)
  (94, (.cast .w8 (.shr (.v 111) 9))), -- 1313: s[30] = byte(s11 >> 9)
  (95, (.cast .w8 (.shr (.v 111) 17))) -- 1314: s[31] = byte(s11 >> 17)
]

end Verif.Limb
