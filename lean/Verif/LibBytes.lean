import Verif.Wasm
/-
Generated by tools/libwasm.py from /repo/runtime/abi/library.go:5-290: the bytes of the embedded library, its checksum, and the module which the bytes are
the encoding of (LibWasm.lean proves that).
-/
namespace Gate.Wasm

/-- runtime/abi/library.go:5. -/
def libraryChecksum : Nat := 0xcffa4f3a040c7b50

/-- runtime/abi/library.go:8-27. -/
def bytes0 : List Nat := [0, 97, 115, 109, 1, 0, 0, 0, 1, 157, 1, 21, 96, 2, 127, 127, 0, 96, 0, 0, 96, 2, 127, 127, 1, 127, 96, 0, 1, 127, 96, 1, 127, 1, 126, 96, 3, 127, 126, 127, 1, 127, 96, 7, 127, 127, 127, 127, 127, 127, 127, 0, 96, 1, 127, 1, 127, 96, 3, 127, 126, 126, 1, 127, 96, 4, 127, 127, 127, 127, 1, 127, 96, 2, 127, 126, 1, 127, 96, 3, 127, 127, 127, 1, 127, 96, 4, 127, 126, 127, 127, 1, 127, 96, 4, 127, 126, 126, 127, 1, 127, 96, 5, 127, 127, 127, 126, 127, 1, 127, 96, 5, 127, 127, 127, 127, 127, 1, 127, 96, 6, 127, 127, 127, 127, 127, 127, 1, 127, 96, 7, 127, 127, 127, 127, 127, 127, 127, 1, 127, 96, 7, 127, 127, 127, 127, 126, 126, 127, 1, 127, 96, 9, 127, 127, 127, 127, 127, 126, 126, 127, 127, 1, 127, 96, 1, 127, 0, 2, 84, 8, 2, 114, 116, 5, 100, 101, 98, 117, 103, 0, 0, 2, 114, 116, 3, 110, 111, 112, 0, 1, 2, 114, 116, 4, 112, 111, 108, 108, 0, 2, 2, 114, 116, 6, 114, 97, 110, 100, 111, 109, 0, 3, 2, 114, 116, 4, 114, 101, 97, 100, 0, 2, 2, 114, 116, 4, 115, 116, 111, 112, 0, 4, 2, 114, 116, 4, 116, 105, 109]

/-- runtime/abi/library.go:28-47. -/
def bytes1 : List Nat := [101, 0, 4, 2, 114, 116, 5, 119, 114, 105, 116, 101, 0, 2, 3, 39, 38, 2, 2, 2, 5, 2, 2, 6, 3, 7, 2, 2, 8, 2, 9, 2, 7, 2, 10, 11, 8, 12, 13, 14, 9, 11, 15, 16, 17, 18, 19, 9, 20, 7, 2, 3, 16, 15, 2, 5, 3, 1, 0, 0, 7, 174, 5, 38, 8, 97, 114, 103, 115, 95, 103, 101, 116, 0, 8, 14, 97, 114, 103, 115, 95, 115, 105, 122, 101, 115, 95, 103, 101, 116, 0, 9, 13, 99, 108, 111, 99, 107, 95, 114, 101, 115, 95, 103, 101, 116, 0, 10, 14, 99, 108, 111, 99, 107, 95, 116, 105, 109, 101, 95, 103, 101, 116, 0, 11, 11, 101, 110, 118, 105, 114, 111, 110, 95, 103, 101, 116, 0, 12, 17, 101, 110, 118, 105, 114, 111, 110, 95, 115, 105, 122, 101, 115, 95, 103, 101, 116, 0, 13, 2, 105, 111, 0, 14, 2, 102, 100, 0, 15, 8, 102, 100, 95, 99, 108, 111, 115, 101, 0, 16, 13, 102, 100, 95, 102, 100, 115, 116, 97, 116, 95, 103, 101, 116, 0, 17, 19, 102, 100, 95, 102, 100, 115, 116, 97, 116, 95, 115, 101, 116, 95, 102, 108, 97, 103, 115, 0, 18, 20, 102, 100, 95, 102, 100, 115, 116, 97, 116, 95, 115, 101, 116, 95, 114, 105, 103, 104, 116, 115, 0]

/-- runtime/abi/library.go:48-67. -/
def bytes2 : List Nat := [19, 15, 102, 100, 95, 102, 105, 108, 101, 115, 116, 97, 116, 95, 103, 101, 116, 0, 20, 7, 102, 100, 95, 114, 101, 97, 100, 0, 21, 11, 102, 100, 95, 114, 101, 110, 117, 109, 98, 101, 114, 0, 22, 11, 102, 100, 95, 115, 116, 117, 98, 95, 105, 51, 50, 0, 23, 14, 102, 100, 95, 115, 116, 117, 98, 95, 105, 51, 50, 105, 51, 50, 0, 24, 14, 102, 100, 95, 115, 116, 117, 98, 95, 105, 51, 50, 105, 54, 52, 0, 25, 17, 102, 100, 95, 115, 116, 117, 98, 95, 105, 51, 50, 105, 51, 50, 105, 51, 50, 0, 26, 17, 102, 100, 95, 115, 116, 117, 98, 95, 105, 51, 50, 105, 54, 52, 105, 54, 52, 0, 27, 20, 102, 100, 95, 115, 116, 117, 98, 95, 105, 51, 50, 105, 54, 52, 105, 51, 50, 105, 51, 50, 0, 28, 20, 102, 100, 95, 115, 116, 117, 98, 95, 105, 51, 50, 105, 54, 52, 105, 54, 52, 105, 51, 50, 0, 29, 23, 102, 100, 95, 115, 116, 117, 98, 95, 105, 51, 50, 105, 51, 50, 105, 51, 50, 105, 54, 52, 105, 51, 50, 0, 30, 8, 102, 100, 95, 119, 114, 105, 116, 101, 0, 31, 19, 112, 97, 116, 104, 95, 115, 116, 117, 98, 95, 105, 51, 50, 105, 51, 50, 105, 51, 50, 0, 32, 25, 112, 97, 116]

/-- runtime/abi/library.go:68-87. -/
def bytes3 : List Nat := [104, 95, 115, 116, 117, 98, 95, 105, 51, 50, 105, 51, 50, 105, 51, 50, 105, 51, 50, 105, 51, 50, 0, 33, 28, 112, 97, 116, 104, 95, 115, 116, 117, 98, 95, 105, 51, 50, 105, 51, 50, 105, 51, 50, 105, 51, 50, 105, 51, 50, 105, 51, 50, 0, 34, 31, 112, 97, 116, 104, 95, 115, 116, 117, 98, 95, 105, 51, 50, 105, 51, 50, 105, 51, 50, 105, 51, 50, 105, 51, 50, 105, 51, 50, 105, 51, 50, 0, 35, 31, 112, 97, 116, 104, 95, 115, 116, 117, 98, 95, 105, 51, 50, 105, 51, 50, 105, 51, 50, 105, 51, 50, 105, 54, 52, 105, 54, 52, 105, 51, 50, 0, 36, 37, 112, 97, 116, 104, 95, 115, 116, 117, 98, 95, 105, 51, 50, 105, 51, 50, 105, 51, 50, 105, 51, 50, 105, 51, 50, 105, 54, 52, 105, 54, 52, 105, 51, 50, 105, 51, 50, 0, 37, 11, 112, 111, 108, 108, 95, 111, 110, 101, 111, 102, 102, 0, 38, 9, 112, 114, 111, 99, 95, 101, 120, 105, 116, 0, 39, 10, 112, 114, 111, 99, 95, 114, 97, 105, 115, 101, 0, 40, 10, 114, 97, 110, 100, 111, 109, 95, 103, 101, 116, 0, 41, 11, 115, 99, 104, 101, 100, 95, 121, 105, 101, 108, 100, 0, 42, 9, 115, 111, 99, 107, 95, 114, 101, 99, 118, 0]

/-- runtime/abi/library.go:88-107. -/
def bytes4 : List Nat := [43, 9, 115, 111, 99, 107, 95, 115, 101, 110, 100, 0, 44, 13, 115, 111, 99, 107, 95, 115, 104, 117, 116, 100, 111, 119, 110, 0, 45, 10, 210, 18, 38, 13, 0, 2, 64, 65, 1, 13, 0, 16, 1, 11, 65, 0, 11, 27, 0, 2, 64, 65, 1, 13, 0, 16, 1, 11, 32, 0, 65, 0, 54, 2, 0, 32, 1, 65, 0, 54, 2, 0, 65, 0, 11, 35, 0, 2, 64, 65, 1, 13, 0, 16, 1, 11, 32, 0, 65, 4, 79, 4, 64, 65, 28, 15, 11, 32, 1, 66, 128, 148, 235, 220, 3, 55, 3, 0, 65, 0, 11, 74, 1, 1, 126, 2, 64, 65, 1, 13, 0, 16, 1, 11, 32, 0, 65, 4, 79, 4, 64, 65, 28, 15, 11, 2, 64, 2, 64, 3, 64, 32, 0, 65, 2, 73, 13, 1, 65, 255, 0, 16, 5, 33, 3, 32, 3, 66, 0, 82, 13, 2, 12, 0, 11, 11, 32, 0, 65, 5, 106, 16, 6, 33, 3, 11, 32, 2, 32, 3, 55, 3, 0, 65, 0, 11, 147, 1, 0, 2, 64, 65, 1, 13, 0, 16, 1, 11, 32, 1, 66, 199, 130, 209, 170, 244, 171, 144, 161, 201, 0, 55, 3, 0, 32, 1, 66, 223, 172, 149, 146, 181, 170, 210, 167, 206, 0, 55, 3, 8, 32, 1, 66, 189, 224, 128, 184, 148, 136, 213]

/-- runtime/abi/library.go:108-127. -/
def bytes5 : List Nat := [162, 223, 0, 55, 3, 16, 32, 1, 66, 198, 136, 245, 161, 131, 224, 209, 160, 212, 0, 55, 3, 24, 32, 1, 66, 197, 190, 181, 138, 132, 235, 215, 169, 197, 0, 55, 3, 32, 32, 1, 66, 206, 136, 253, 154, 149, 201, 214, 162, 61, 55, 3, 40, 32, 1, 66, 182, 234, 212, 153, 227, 6, 55, 3, 48, 32, 0, 32, 1, 54, 2, 0, 32, 0, 32, 1, 65, 19, 106, 54, 2, 4, 32, 0, 32, 1, 65, 29, 106, 54, 2, 8, 65, 0, 11, 27, 0, 2, 64, 65, 1, 13, 0, 16, 1, 11, 32, 0, 65, 3, 54, 2, 0, 32, 1, 65, 56, 54, 2, 0, 65, 0, 11, 230, 1, 1, 4, 127, 2, 64, 65, 1, 13, 0, 16, 1, 11, 65, 5, 33, 7, 32, 6, 65, 1, 113, 4, 64, 65, 1, 32, 4, 4, 127, 65, 4, 5, 65, 0, 11, 16, 2, 33, 7, 11, 2, 64, 65, 1, 13, 0, 16, 1, 11, 32, 7, 65, 4, 113, 4, 64, 2, 64, 3, 64, 32, 4, 69, 13, 1, 32, 3, 40, 2, 4, 33, 9, 32, 3, 40, 2, 0, 32, 9, 16, 7, 33, 10, 32, 8, 32, 10, 106, 33, 8, 32, 10, 32, 9, 71, 13, 1, 32, 3, 65, 8, 106, 33, 3, 32, 4, 65, 1, 107, 33, 4, 12, 0, 11, 11]

/-- runtime/abi/library.go:128-147. -/
def bytes6 : List Nat := [11, 32, 5, 4, 64, 32, 5, 32, 8, 54, 2, 0, 11, 2, 64, 65, 1, 13, 0, 16, 1, 11, 65, 0, 33, 8, 32, 7, 65, 1, 113, 4, 64, 2, 64, 3, 64, 32, 1, 69, 13, 1, 32, 0, 40, 2, 4, 33, 9, 32, 0, 40, 2, 0, 32, 9, 16, 4, 33, 10, 32, 8, 32, 10, 106, 33, 8, 32, 10, 32, 9, 71, 13, 1, 32, 0, 65, 8, 106, 33, 0, 32, 1, 65, 1, 107, 33, 1, 12, 0, 11, 11, 11, 32, 2, 4, 64, 32, 2, 32, 8, 54, 2, 0, 11, 2, 64, 65, 1, 13, 0, 16, 1, 11, 11, 13, 0, 2, 64, 65, 1, 13, 0, 16, 1, 11, 65, 4, 11, 53, 1, 1, 126, 2, 64, 65, 1, 13, 0, 16, 1, 11, 32, 0, 65, 3, 70, 32, 0, 65, 5, 79, 114, 4, 64, 65, 8, 15, 11, 3, 64, 65, 255, 0, 16, 5, 33, 1, 32, 1, 66, 0, 81, 4, 64, 12, 1, 11, 11, 32, 1, 167, 11, 107, 2, 1, 127, 1, 126, 2, 64, 65, 1, 13, 0, 16, 1, 11, 2, 64, 65, 1, 13, 0, 16, 1, 11, 32, 0, 65, 3, 70, 32, 0, 65, 5, 79, 114, 4, 64, 65, 8, 15, 11, 32, 0, 65, 1, 70, 32, 0, 65, 2, 70, 114, 4, 64, 66, 192, 0]

/-- runtime/abi/library.go:148-167. -/
def bytes7 : List Nat := [33, 3, 11, 32, 0, 65, 4, 70, 4, 64, 65, 4, 33, 2, 66, 194, 0, 33, 3, 11, 32, 1, 65, 0, 58, 0, 0, 32, 1, 32, 2, 59, 1, 2, 32, 1, 32, 3, 55, 3, 8, 32, 1, 66, 0, 55, 3, 16, 65, 0, 11, 30, 0, 2, 64, 65, 1, 13, 0, 16, 1, 11, 32, 0, 65, 3, 70, 32, 0, 65, 5, 79, 114, 4, 64, 65, 8, 15, 11, 65, 63, 11, 161, 1, 1, 1, 126, 2, 64, 65, 1, 13, 0, 16, 1, 11, 32, 0, 65, 3, 70, 32, 0, 65, 5, 79, 114, 4, 64, 65, 8, 15, 11, 32, 2, 66, 0, 82, 4, 64, 65, 204, 0, 15, 11, 32, 0, 69, 4, 64, 32, 1, 66, 0, 81, 4, 64, 65, 0, 15, 5, 65, 204, 0, 15, 11, 11, 32, 0, 65, 1, 70, 32, 0, 65, 2, 70, 114, 4, 64, 32, 1, 66, 192, 0, 81, 4, 64, 65, 0, 15, 11, 32, 1, 66, 0, 82, 4, 64, 65, 204, 0, 15, 11, 11, 32, 0, 65, 4, 70, 4, 64, 32, 1, 66, 194, 0, 81, 4, 64, 65, 0, 15, 11, 32, 1, 66, 189, 127, 131, 66, 0, 82, 4, 64, 65, 204, 0, 15, 11, 11, 3, 64, 65, 255, 0, 16, 5, 33, 3, 32, 3, 66, 0, 81, 4, 64, 12, 1, 11]

/-- runtime/abi/library.go:168-187. -/
def bytes8 : List Nat := [11, 32, 3, 167, 11, 86, 0, 2, 64, 65, 1, 13, 0, 16, 1, 11, 32, 0, 65, 3, 70, 32, 0, 65, 5, 79, 114, 4, 64, 65, 8, 15, 11, 32, 1, 66, 0, 55, 3, 0, 32, 1, 66, 0, 55, 3, 8, 32, 1, 65, 0, 58, 0, 16, 32, 1, 65, 0, 54, 2, 20, 32, 1, 65, 0, 54, 2, 24, 32, 1, 66, 0, 55, 3, 32, 32, 1, 66, 0, 55, 3, 40, 32, 1, 66, 0, 55, 3, 48, 65, 0, 11, 135, 1, 1, 3, 127, 2, 64, 65, 1, 13, 0, 16, 1, 11, 32, 0, 65, 3, 70, 32, 0, 65, 5, 79, 114, 4, 64, 65, 8, 15, 11, 32, 0, 69, 4, 64, 65, 63, 15, 11, 32, 0, 65, 4, 71, 4, 64, 65, 28, 15, 11, 2, 64, 3, 64, 32, 2, 69, 13, 1, 32, 1, 40, 2, 4, 33, 5, 32, 1, 40, 2, 0, 32, 5, 16, 4, 33, 6, 32, 4, 32, 6, 106, 33, 4, 32, 6, 32, 5, 71, 13, 1, 32, 1, 65, 8, 106, 33, 1, 32, 2, 65, 1, 107, 33, 2, 12, 0, 11, 11, 32, 3, 32, 4, 54, 2, 0, 32, 4, 4, 64, 65, 0, 15, 11, 2, 64, 65, 1, 13, 0, 16, 1, 11, 65, 6, 11, 76, 1, 1, 126, 2, 64, 65, 1, 13, 0, 16]

/-- runtime/abi/library.go:188-207. -/
def bytes9 : List Nat := [1, 11, 32, 0, 65, 3, 70, 32, 0, 65, 5, 79, 114, 32, 1, 65, 3, 70, 32, 1, 65, 5, 79, 114, 114, 4, 64, 65, 8, 15, 11, 32, 0, 32, 1, 70, 4, 64, 65, 0, 15, 11, 3, 64, 65, 255, 0, 16, 5, 33, 2, 32, 2, 66, 0, 81, 4, 64, 12, 1, 11, 11, 32, 2, 167, 11, 31, 0, 2, 64, 65, 1, 13, 0, 16, 1, 11, 32, 0, 65, 3, 70, 32, 0, 65, 5, 79, 114, 4, 64, 65, 8, 15, 11, 65, 198, 0, 11, 31, 0, 2, 64, 65, 1, 13, 0, 16, 1, 11, 32, 0, 65, 3, 70, 32, 0, 65, 5, 79, 114, 4, 64, 65, 8, 15, 11, 65, 198, 0, 11, 31, 0, 2, 64, 65, 1, 13, 0, 16, 1, 11, 32, 0, 65, 3, 70, 32, 0, 65, 5, 79, 114, 4, 64, 65, 8, 15, 11, 65, 198, 0, 11, 31, 0, 2, 64, 65, 1, 13, 0, 16, 1, 11, 32, 0, 65, 3, 70, 32, 0, 65, 5, 79, 114, 4, 64, 65, 8, 15, 11, 65, 198, 0, 11, 31, 0, 2, 64, 65, 1, 13, 0, 16, 1, 11, 32, 0, 65, 3, 70, 32, 0, 65, 5, 79, 114, 4, 64, 65, 8, 15, 11, 65, 198, 0, 11, 31, 0, 2, 64, 65, 1, 13, 0, 16, 1, 11, 32, 0, 65]

/-- runtime/abi/library.go:208-227. -/
def bytes10 : List Nat := [3, 70, 32, 0, 65, 5, 79, 114, 4, 64, 65, 8, 15, 11, 65, 198, 0, 11, 31, 0, 2, 64, 65, 1, 13, 0, 16, 1, 11, 32, 0, 65, 3, 70, 32, 0, 65, 5, 79, 114, 4, 64, 65, 8, 15, 11, 65, 198, 0, 11, 31, 0, 2, 64, 65, 1, 13, 0, 16, 1, 11, 32, 0, 65, 3, 70, 32, 0, 65, 5, 79, 114, 4, 64, 65, 8, 15, 11, 65, 198, 0, 11, 180, 1, 1, 3, 127, 2, 64, 65, 1, 13, 0, 16, 1, 11, 32, 0, 65, 3, 70, 32, 0, 65, 5, 79, 114, 4, 64, 65, 8, 15, 11, 32, 0, 69, 4, 64, 65, 28, 15, 11, 2, 64, 32, 0, 65, 4, 70, 4, 64, 3, 64, 32, 2, 69, 13, 2, 32, 1, 40, 2, 4, 33, 5, 32, 1, 40, 2, 0, 32, 5, 16, 7, 33, 6, 32, 4, 32, 6, 106, 33, 4, 32, 6, 32, 5, 71, 13, 2, 32, 1, 65, 8, 106, 33, 1, 32, 2, 65, 1, 107, 33, 2, 12, 0, 11, 5, 3, 64, 32, 2, 69, 13, 2, 32, 1, 40, 2, 4, 33, 5, 32, 1, 40, 2, 0, 32, 5, 16, 0, 32, 4, 32, 5, 106, 33, 4, 32, 1, 65, 8, 106, 33, 1, 32, 2, 65, 1, 107, 33, 2, 12, 0, 11, 11, 11, 32, 3, 32]

/-- runtime/abi/library.go:228-247. -/
def bytes11 : List Nat := [4, 54, 2, 0, 32, 4, 4, 64, 65, 0, 15, 11, 2, 64, 65, 1, 13, 0, 16, 1, 11, 65, 6, 11, 13, 0, 2, 64, 65, 1, 13, 0, 16, 1, 11, 65, 44, 11, 13, 0, 2, 64, 65, 1, 13, 0, 16, 1, 11, 65, 44, 11, 13, 0, 2, 64, 65, 1, 13, 0, 16, 1, 11, 65, 44, 11, 13, 0, 2, 64, 65, 1, 13, 0, 16, 1, 11, 65, 44, 11, 13, 0, 2, 64, 65, 1, 13, 0, 16, 1, 11, 65, 44, 11, 13, 0, 2, 64, 65, 1, 13, 0, 16, 1, 11, 65, 44, 11, 129, 3, 3, 4, 127, 2, 126, 2, 127, 2, 64, 65, 1, 13, 0, 16, 1, 11, 2, 64, 3, 64, 32, 2, 69, 13, 1, 32, 0, 45, 0, 8, 33, 4, 32, 4, 65, 3, 79, 4, 64, 65, 28, 15, 11, 32, 4, 69, 4, 64, 65, 255, 0, 16, 5, 26, 12, 1, 11, 32, 0, 40, 2, 16, 33, 5, 32, 5, 65, 4, 70, 4, 64, 32, 4, 65, 1, 70, 4, 64, 65, 1, 33, 6, 32, 0, 41, 3, 0, 33, 8, 11, 32, 4, 65, 2, 70, 4, 64, 65, 4, 33, 7, 32, 0, 41, 3, 0, 33, 9, 11, 5, 32, 5, 65, 3, 79, 4, 64, 32, 1, 32, 0, 41, 3, 0, 55, 3, 0, 32, 1, 65]

/-- runtime/abi/library.go:248-267. -/
def bytes12 : List Nat := [8, 59, 1, 8, 32, 1, 65, 32, 106, 33, 1, 32, 11, 65, 1, 106, 33, 11, 11, 11, 32, 5, 65, 1, 70, 32, 5, 65, 2, 70, 114, 32, 4, 65, 2, 70, 113, 4, 64, 32, 1, 32, 0, 41, 3, 0, 55, 3, 0, 32, 1, 65, 0, 59, 1, 8, 32, 1, 65, 2, 58, 0, 10, 32, 1, 66, 1, 55, 3, 16, 32, 1, 65, 0, 59, 1, 24, 32, 1, 65, 32, 106, 33, 1, 32, 11, 65, 1, 106, 33, 11, 11, 32, 0, 65, 56, 106, 33, 0, 32, 2, 65, 1, 107, 33, 2, 12, 0, 11, 11, 32, 6, 32, 7, 16, 2, 33, 10, 32, 10, 65, 1, 113, 4, 64, 32, 1, 32, 8, 55, 3, 0, 32, 1, 65, 0, 59, 1, 8, 32, 1, 65, 1, 58, 0, 10, 32, 1, 66, 128, 128, 4, 55, 3, 16, 32, 1, 65, 0, 59, 1, 24, 32, 1, 65, 32, 106, 33, 1, 32, 11, 65, 1, 106, 33, 11, 11, 32, 10, 65, 4, 113, 4, 64, 32, 1, 32, 9, 55, 3, 0, 32, 1, 65, 0, 59, 1, 8, 32, 1, 65, 2, 58, 0, 10, 32, 1, 66, 128, 128, 4, 55, 3, 16, 32, 1, 65, 0, 59, 1, 24, 32, 1, 65, 32, 106, 33, 1, 32, 11, 65, 1, 106, 33, 11, 11, 32, 3, 32, 11]

/-- runtime/abi/library.go:268-287. -/
def bytes13 : List Nat := [54, 2, 0, 2, 64, 65, 1, 13, 0, 16, 1, 11, 65, 0, 11, 31, 0, 2, 64, 65, 1, 13, 0, 16, 1, 11, 32, 0, 65, 0, 71, 65, 2, 114, 33, 0, 3, 64, 32, 0, 16, 5, 26, 12, 0, 11, 11, 17, 0, 2, 64, 65, 1, 13, 0, 16, 1, 11, 65, 255, 0, 16, 5, 167, 11, 85, 2, 1, 126, 1, 127, 2, 64, 65, 1, 13, 0, 16, 1, 11, 2, 64, 3, 64, 32, 1, 69, 4, 64, 12, 2, 11, 16, 3, 33, 3, 32, 3, 65, 0, 78, 4, 64, 32, 0, 32, 3, 58, 0, 0, 32, 0, 65, 1, 106, 33, 0, 32, 1, 65, 1, 107, 33, 1, 5, 65, 255, 0, 16, 5, 33, 2, 32, 2, 66, 0, 82, 4, 64, 12, 3, 11, 11, 12, 0, 11, 11, 32, 2, 167, 11, 13, 0, 2, 64, 65, 1, 13, 0, 16, 1, 11, 65, 0, 11, 30, 0, 2, 64, 65, 1, 13, 0, 16, 1, 11, 32, 0, 65, 3, 70, 32, 0, 65, 5, 79, 114, 4, 64, 65, 8, 15, 11, 65, 57, 11, 30, 0, 2, 64, 65, 1, 13, 0, 16, 1, 11, 32, 0, 65, 3, 70, 32, 0, 65, 5, 79, 114, 4, 64, 65, 8, 15, 11, 65, 57, 11, 30, 0, 2, 64, 65, 1, 13, 0, 16, 1, 11, 32, 0]

/-- runtime/abi/library.go:288-289. -/
def bytes14 : List Nat := [65, 3, 70, 32, 0, 65, 5, 79, 114, 4, 64, 65, 8, 15, 11, 65, 57, 11]

/-- `libraryWASM`, runtime/abi/library.go:7-290. -/
def libraryWASM : List Nat := bytes0 ++ (bytes1 ++ (bytes2 ++ (bytes3 ++ (bytes4 ++ (bytes5 ++ (bytes6 ++ (bytes7 ++ (bytes8 ++ (bytes9 ++ (bytes10 ++ (bytes11 ++ (bytes12 ++ (bytes13 ++ (bytes14))))))))))))))

/-- The code of `args_get` in library.go. -/
def code_args_get : Code := .cons (.block (.cons (.const 1) <| .cons (.brIf 0) <| .cons (.call 1) <| .nil)) <| .cons (.const 0) <| .nil

/-- The code of `args_sizes_get` in library.go. -/
def code_args_sizes_get : Code := .cons (.block (.cons (.const 1) <| .cons (.brIf 0) <| .cons (.call 1) <| .nil)) <| .cons (.get 0) <| .cons (.const 0) <| .cons (.store 4 0) <| .cons (.get 1) <| .cons (.const 0) <| .cons (.store 4 0) <| .cons (.const 0) <| .nil

/-- The code of `clock_res_get` in library.go. -/
def code_clock_res_get : Code := .cons (.block (.cons (.const 1) <| .cons (.brIf 0) <| .cons (.call 1) <| .nil)) <| .cons (.get 0) <| .cons (.const 4) <| .cons .i32GeU <| .cons (.ite false (.cons (.const 28) <| .cons .ret <| .nil) (.nil)) <| .cons (.get 1) <| .cons (.const 1000000000) <| .cons (.store 8 0) <| .cons (.const 0) <| .nil

/-- A loop's body in `clock_time_get`. -/
def loop_clock_time_get_0 : Code := .cons (.get 0) <| .cons (.const 2) <| .cons .i32LtU <| .cons (.brIf 1) <| .cons (.const 127) <| .cons (.call 5) <| .cons (.set 3) <| .cons (.get 3) <| .cons (.const 0) <| .cons .i64Ne <| .cons (.brIf 2) <| .cons (.br 0) <| .nil

/-- The code of `clock_time_get` in library.go. -/
def code_clock_time_get : Code := .cons (.block (.cons (.const 1) <| .cons (.brIf 0) <| .cons (.call 1) <| .nil)) <| .cons (.get 0) <| .cons (.const 4) <| .cons .i32GeU <| .cons (.ite false (.cons (.const 28) <| .cons .ret <| .nil) (.nil)) <| .cons (.block (.cons (.block (.cons (.loop loop_clock_time_get_0) <| .nil)) <| .cons (.get 0) <| .cons (.const 5) <| .cons .i32Add <| .cons (.call 6) <| .cons (.set 3) <| .nil)) <| .cons (.get 2) <| .cons (.get 3) <| .cons (.store 8 0) <| .cons (.const 0) <| .nil

/-- The code of `environ_get` in library.go. -/
def code_environ_get : Code := .cons (.block (.cons (.const 1) <| .cons (.brIf 0) <| .cons (.call 1) <| .nil)) <| .cons (.get 1) <| .cons (.const 5278853590672490823) <| .cons (.store 8 0) <| .cons (.get 1) <| .cons (.const 5642809480329909855) <| .cons (.store 8 8) <| .cons (.get 1) <| .cons (.const 6864985846336991293) <| .cons (.store 8 16) <| .cons (.get 1) <| .cons (.const 6071211838874141766) <| .cons (.store 8 24) <| .cons (.get 1) <| .cons (.const 4995441244341362501) <| .cons (.store 8 32) <| .cons (.get 1) <| .cons (.const 4415034280684504142) <| .cons (.store 8 40) <| .cons (.get 1) <| .cons (.const 232787359030) <| .cons (.store 8 48) <| .cons (.get 0) <| .cons (.get 1) <| .cons (.store 4 0) <| .cons (.get 0) <| .cons (.get 1) <| .cons (.const 19) <| .cons .i32Add <| .cons (.store 4 4) <| .cons (.get 0) <| .cons (.get 1) <| .cons (.const 29) <| .cons .i32Add <| .cons (.store 4 8) <| .cons (.const 0) <| .nil

/-- The code of `environ_sizes_get` in library.go. -/
def code_environ_sizes_get : Code := .cons (.block (.cons (.const 1) <| .cons (.brIf 0) <| .cons (.call 1) <| .nil)) <| .cons (.get 0) <| .cons (.const 3) <| .cons (.store 4 0) <| .cons (.get 1) <| .cons (.const 56) <| .cons (.store 4 0) <| .cons (.const 0) <| .nil

/-- A loop's body in `io`. -/
def loop_io_0 : Code := .cons (.get 4) <| .cons .i32Eqz <| .cons (.brIf 1) <| .cons (.get 3) <| .cons (.load 4 4) <| .cons (.set 9) <| .cons (.get 3) <| .cons (.load 4 0) <| .cons (.get 9) <| .cons (.call 7) <| .cons (.set 10) <| .cons (.get 8) <| .cons (.get 10) <| .cons .i32Add <| .cons (.set 8) <| .cons (.get 10) <| .cons (.get 9) <| .cons .i32Ne <| .cons (.brIf 1) <| .cons (.get 3) <| .cons (.const 8) <| .cons .i32Add <| .cons (.set 3) <| .cons (.get 4) <| .cons (.const 1) <| .cons .i32Sub <| .cons (.set 4) <| .cons (.br 0) <| .nil

/-- A loop's body in `io`. -/
def loop_io_1 : Code := .cons (.get 1) <| .cons .i32Eqz <| .cons (.brIf 1) <| .cons (.get 0) <| .cons (.load 4 4) <| .cons (.set 9) <| .cons (.get 0) <| .cons (.load 4 0) <| .cons (.get 9) <| .cons (.call 4) <| .cons (.set 10) <| .cons (.get 8) <| .cons (.get 10) <| .cons .i32Add <| .cons (.set 8) <| .cons (.get 10) <| .cons (.get 9) <| .cons .i32Ne <| .cons (.brIf 1) <| .cons (.get 0) <| .cons (.const 8) <| .cons .i32Add <| .cons (.set 0) <| .cons (.get 1) <| .cons (.const 1) <| .cons .i32Sub <| .cons (.set 1) <| .cons (.br 0) <| .nil

/-- The code of `io` in library.go. -/
def code_io : Code := .cons (.block (.cons (.const 1) <| .cons (.brIf 0) <| .cons (.call 1) <| .nil)) <| .cons (.const 5) <| .cons (.set 7) <| .cons (.get 6) <| .cons (.const 1) <| .cons .i32And <| .cons (.ite false (.cons (.const 1) <| .cons (.get 4) <| .cons (.ite true (.cons (.const 4) <| .nil) (.cons (.const 0) <| .nil)) <| .cons (.call 2) <| .cons (.set 7) <| .nil) (.nil)) <| .cons (.block (.cons (.const 1) <| .cons (.brIf 0) <| .cons (.call 1) <| .nil)) <| .cons (.get 7) <| .cons (.const 4) <| .cons .i32And <| .cons (.ite false (.cons (.block (.cons (.loop loop_io_0) <| .nil)) <| .nil) (.nil)) <| .cons (.get 5) <| .cons (.ite false (.cons (.get 5) <| .cons (.get 8) <| .cons (.store 4 0) <| .nil) (.nil)) <| .cons (.block (.cons (.const 1) <| .cons (.brIf 0) <| .cons (.call 1) <| .nil)) <| .cons (.const 0) <| .cons (.set 8) <| .cons (.get 7) <| .cons (.const 1) <| .cons .i32And <| .cons (.ite false (.cons (.block (.cons (.loop loop_io_1) <| .nil)) <| .nil) (.nil)) <| .cons (.get 2) <| .cons (.ite false (.cons (.get 2) <| .cons (.get 8) <| .cons (.store 4 0) <| .nil) (.nil)) <| .cons (.block (.cons (.const 1) <| .cons (.brIf 0) <| .cons (.call 1) <| .nil)) <| .nil

/-- The code of `fd` in library.go. -/
def code_fd : Code := .cons (.block (.cons (.const 1) <| .cons (.brIf 0) <| .cons (.call 1) <| .nil)) <| .cons (.const 4) <| .nil

/-- A loop's body in `fd_close`. -/
def loop_fd_close_0 : Code := .cons (.const 127) <| .cons (.call 5) <| .cons (.set 1) <| .cons (.get 1) <| .cons (.const 0) <| .cons .i64Eq <| .cons (.ite false (.cons (.br 1) <| .nil) (.nil)) <| .nil

/-- The code of `fd_close` in library.go. -/
def code_fd_close : Code := .cons (.block (.cons (.const 1) <| .cons (.brIf 0) <| .cons (.call 1) <| .nil)) <| .cons (.get 0) <| .cons (.const 3) <| .cons .i32Eq <| .cons (.get 0) <| .cons (.const 5) <| .cons .i32GeU <| .cons .i32Or <| .cons (.ite false (.cons (.const 8) <| .cons .ret <| .nil) (.nil)) <| .cons (.loop loop_fd_close_0) <| .cons (.get 1) <| .cons .i32Wrap <| .nil

/-- The code of `fd_fdstat_get` in library.go. -/
def code_fd_fdstat_get : Code := .cons (.block (.cons (.const 1) <| .cons (.brIf 0) <| .cons (.call 1) <| .nil)) <| .cons (.block (.cons (.const 1) <| .cons (.brIf 0) <| .cons (.call 1) <| .nil)) <| .cons (.get 0) <| .cons (.const 3) <| .cons .i32Eq <| .cons (.get 0) <| .cons (.const 5) <| .cons .i32GeU <| .cons .i32Or <| .cons (.ite false (.cons (.const 8) <| .cons .ret <| .nil) (.nil)) <| .cons (.get 0) <| .cons (.const 1) <| .cons .i32Eq <| .cons (.get 0) <| .cons (.const 2) <| .cons .i32Eq <| .cons .i32Or <| .cons (.ite false (.cons (.const 64) <| .cons (.set 3) <| .nil) (.nil)) <| .cons (.get 0) <| .cons (.const 4) <| .cons .i32Eq <| .cons (.ite false (.cons (.const 4) <| .cons (.set 2) <| .cons (.const 66) <| .cons (.set 3) <| .nil) (.nil)) <| .cons (.get 1) <| .cons (.const 0) <| .cons (.store 1 0) <| .cons (.get 1) <| .cons (.get 2) <| .cons (.store 2 2) <| .cons (.get 1) <| .cons (.get 3) <| .cons (.store 8 8) <| .cons (.get 1) <| .cons (.const 0) <| .cons (.store 8 16) <| .cons (.const 0) <| .nil

/-- The code of `fd_fdstat_set_flags` in library.go. -/
def code_fd_fdstat_set_flags : Code := .cons (.block (.cons (.const 1) <| .cons (.brIf 0) <| .cons (.call 1) <| .nil)) <| .cons (.get 0) <| .cons (.const 3) <| .cons .i32Eq <| .cons (.get 0) <| .cons (.const 5) <| .cons .i32GeU <| .cons .i32Or <| .cons (.ite false (.cons (.const 8) <| .cons .ret <| .nil) (.nil)) <| .cons (.const 63) <| .nil

/-- A loop's body in `fd_fdstat_set_rights`. -/
def loop_fd_fdstat_set_rights_0 : Code := .cons (.const 127) <| .cons (.call 5) <| .cons (.set 3) <| .cons (.get 3) <| .cons (.const 0) <| .cons .i64Eq <| .cons (.ite false (.cons (.br 1) <| .nil) (.nil)) <| .nil

/-- The code of `fd_fdstat_set_rights` in library.go. -/
def code_fd_fdstat_set_rights : Code := .cons (.block (.cons (.const 1) <| .cons (.brIf 0) <| .cons (.call 1) <| .nil)) <| .cons (.get 0) <| .cons (.const 3) <| .cons .i32Eq <| .cons (.get 0) <| .cons (.const 5) <| .cons .i32GeU <| .cons .i32Or <| .cons (.ite false (.cons (.const 8) <| .cons .ret <| .nil) (.nil)) <| .cons (.get 2) <| .cons (.const 0) <| .cons .i64Ne <| .cons (.ite false (.cons (.const 76) <| .cons .ret <| .nil) (.nil)) <| .cons (.get 0) <| .cons .i32Eqz <| .cons (.ite false (.cons (.get 1) <| .cons (.const 0) <| .cons .i64Eq <| .cons (.ite false (.cons (.const 0) <| .cons .ret <| .nil) (.cons (.const 76) <| .cons .ret <| .nil)) <| .nil) (.nil)) <| .cons (.get 0) <| .cons (.const 1) <| .cons .i32Eq <| .cons (.get 0) <| .cons (.const 2) <| .cons .i32Eq <| .cons .i32Or <| .cons (.ite false (.cons (.get 1) <| .cons (.const 64) <| .cons .i64Eq <| .cons (.ite false (.cons (.const 0) <| .cons .ret <| .nil) (.nil)) <| .cons (.get 1) <| .cons (.const 0) <| .cons .i64Ne <| .cons (.ite false (.cons (.const 76) <| .cons .ret <| .nil) (.nil)) <| .nil) (.nil)) <| .cons (.get 0) <| .cons (.const 4) <| .cons .i32Eq <| .cons (.ite false (.cons (.get 1) <| .cons (.const 66) <| .cons .i64Eq <| .cons (.ite false (.cons (.const 0) <| .cons .ret <| .nil) (.nil)) <| .cons (.get 1) <| .cons (.const 18446744073709551549) <| .cons .i64And <| .cons (.const 0) <| .cons .i64Ne <| .cons (.ite false (.cons (.const 76) <| .cons .ret <| .nil) (.nil)) <| .nil) (.nil)) <| .cons (.loop loop_fd_fdstat_set_rights_0) <| .cons (.get 3) <| .cons .i32Wrap <| .nil

/-- The code of `fd_filestat_get` in library.go. -/
def code_fd_filestat_get : Code := .cons (.block (.cons (.const 1) <| .cons (.brIf 0) <| .cons (.call 1) <| .nil)) <| .cons (.get 0) <| .cons (.const 3) <| .cons .i32Eq <| .cons (.get 0) <| .cons (.const 5) <| .cons .i32GeU <| .cons .i32Or <| .cons (.ite false (.cons (.const 8) <| .cons .ret <| .nil) (.nil)) <| .cons (.get 1) <| .cons (.const 0) <| .cons (.store 8 0) <| .cons (.get 1) <| .cons (.const 0) <| .cons (.store 8 8) <| .cons (.get 1) <| .cons (.const 0) <| .cons (.store 1 16) <| .cons (.get 1) <| .cons (.const 0) <| .cons (.store 4 20) <| .cons (.get 1) <| .cons (.const 0) <| .cons (.store 4 24) <| .cons (.get 1) <| .cons (.const 0) <| .cons (.store 8 32) <| .cons (.get 1) <| .cons (.const 0) <| .cons (.store 8 40) <| .cons (.get 1) <| .cons (.const 0) <| .cons (.store 8 48) <| .cons (.const 0) <| .nil

/-- A loop's body in `fd_read`. -/
def loop_fd_read_0 : Code := .cons (.get 2) <| .cons .i32Eqz <| .cons (.brIf 1) <| .cons (.get 1) <| .cons (.load 4 4) <| .cons (.set 5) <| .cons (.get 1) <| .cons (.load 4 0) <| .cons (.get 5) <| .cons (.call 4) <| .cons (.set 6) <| .cons (.get 4) <| .cons (.get 6) <| .cons .i32Add <| .cons (.set 4) <| .cons (.get 6) <| .cons (.get 5) <| .cons .i32Ne <| .cons (.brIf 1) <| .cons (.get 1) <| .cons (.const 8) <| .cons .i32Add <| .cons (.set 1) <| .cons (.get 2) <| .cons (.const 1) <| .cons .i32Sub <| .cons (.set 2) <| .cons (.br 0) <| .nil

/-- The code of `fd_read` in library.go. -/
def code_fd_read : Code := .cons (.block (.cons (.const 1) <| .cons (.brIf 0) <| .cons (.call 1) <| .nil)) <| .cons (.get 0) <| .cons (.const 3) <| .cons .i32Eq <| .cons (.get 0) <| .cons (.const 5) <| .cons .i32GeU <| .cons .i32Or <| .cons (.ite false (.cons (.const 8) <| .cons .ret <| .nil) (.nil)) <| .cons (.get 0) <| .cons .i32Eqz <| .cons (.ite false (.cons (.const 63) <| .cons .ret <| .nil) (.nil)) <| .cons (.get 0) <| .cons (.const 4) <| .cons .i32Ne <| .cons (.ite false (.cons (.const 28) <| .cons .ret <| .nil) (.nil)) <| .cons (.block (.cons (.loop loop_fd_read_0) <| .nil)) <| .cons (.get 3) <| .cons (.get 4) <| .cons (.store 4 0) <| .cons (.get 4) <| .cons (.ite false (.cons (.const 0) <| .cons .ret <| .nil) (.nil)) <| .cons (.block (.cons (.const 1) <| .cons (.brIf 0) <| .cons (.call 1) <| .nil)) <| .cons (.const 6) <| .nil

/-- A loop's body in `fd_renumber`. -/
def loop_fd_renumber_0 : Code := .cons (.const 127) <| .cons (.call 5) <| .cons (.set 2) <| .cons (.get 2) <| .cons (.const 0) <| .cons .i64Eq <| .cons (.ite false (.cons (.br 1) <| .nil) (.nil)) <| .nil

/-- The code of `fd_renumber` in library.go. -/
def code_fd_renumber : Code := .cons (.block (.cons (.const 1) <| .cons (.brIf 0) <| .cons (.call 1) <| .nil)) <| .cons (.get 0) <| .cons (.const 3) <| .cons .i32Eq <| .cons (.get 0) <| .cons (.const 5) <| .cons .i32GeU <| .cons .i32Or <| .cons (.get 1) <| .cons (.const 3) <| .cons .i32Eq <| .cons (.get 1) <| .cons (.const 5) <| .cons .i32GeU <| .cons .i32Or <| .cons .i32Or <| .cons (.ite false (.cons (.const 8) <| .cons .ret <| .nil) (.nil)) <| .cons (.get 0) <| .cons (.get 1) <| .cons .i32Eq <| .cons (.ite false (.cons (.const 0) <| .cons .ret <| .nil) (.nil)) <| .cons (.loop loop_fd_renumber_0) <| .cons (.get 2) <| .cons .i32Wrap <| .nil

/-- The code of `fd_stub_i32` in library.go. -/
def code_fd_stub_i32 : Code := .cons (.block (.cons (.const 1) <| .cons (.brIf 0) <| .cons (.call 1) <| .nil)) <| .cons (.get 0) <| .cons (.const 3) <| .cons .i32Eq <| .cons (.get 0) <| .cons (.const 5) <| .cons .i32GeU <| .cons .i32Or <| .cons (.ite false (.cons (.const 8) <| .cons .ret <| .nil) (.nil)) <| .cons (.const 70) <| .nil

/-- The code of `fd_stub_i32i32` in library.go. -/
def code_fd_stub_i32i32 : Code := .cons (.block (.cons (.const 1) <| .cons (.brIf 0) <| .cons (.call 1) <| .nil)) <| .cons (.get 0) <| .cons (.const 3) <| .cons .i32Eq <| .cons (.get 0) <| .cons (.const 5) <| .cons .i32GeU <| .cons .i32Or <| .cons (.ite false (.cons (.const 8) <| .cons .ret <| .nil) (.nil)) <| .cons (.const 70) <| .nil

/-- The code of `fd_stub_i32i64` in library.go. -/
def code_fd_stub_i32i64 : Code := .cons (.block (.cons (.const 1) <| .cons (.brIf 0) <| .cons (.call 1) <| .nil)) <| .cons (.get 0) <| .cons (.const 3) <| .cons .i32Eq <| .cons (.get 0) <| .cons (.const 5) <| .cons .i32GeU <| .cons .i32Or <| .cons (.ite false (.cons (.const 8) <| .cons .ret <| .nil) (.nil)) <| .cons (.const 70) <| .nil

/-- The code of `fd_stub_i32i32i32` in library.go. -/
def code_fd_stub_i32i32i32 : Code := .cons (.block (.cons (.const 1) <| .cons (.brIf 0) <| .cons (.call 1) <| .nil)) <| .cons (.get 0) <| .cons (.const 3) <| .cons .i32Eq <| .cons (.get 0) <| .cons (.const 5) <| .cons .i32GeU <| .cons .i32Or <| .cons (.ite false (.cons (.const 8) <| .cons .ret <| .nil) (.nil)) <| .cons (.const 70) <| .nil

/-- The code of `fd_stub_i32i64i64` in library.go. -/
def code_fd_stub_i32i64i64 : Code := .cons (.block (.cons (.const 1) <| .cons (.brIf 0) <| .cons (.call 1) <| .nil)) <| .cons (.get 0) <| .cons (.const 3) <| .cons .i32Eq <| .cons (.get 0) <| .cons (.const 5) <| .cons .i32GeU <| .cons .i32Or <| .cons (.ite false (.cons (.const 8) <| .cons .ret <| .nil) (.nil)) <| .cons (.const 70) <| .nil

/-- The code of `fd_stub_i32i64i32i32` in library.go. -/
def code_fd_stub_i32i64i32i32 : Code := .cons (.block (.cons (.const 1) <| .cons (.brIf 0) <| .cons (.call 1) <| .nil)) <| .cons (.get 0) <| .cons (.const 3) <| .cons .i32Eq <| .cons (.get 0) <| .cons (.const 5) <| .cons .i32GeU <| .cons .i32Or <| .cons (.ite false (.cons (.const 8) <| .cons .ret <| .nil) (.nil)) <| .cons (.const 70) <| .nil

/-- The code of `fd_stub_i32i64i64i32` in library.go. -/
def code_fd_stub_i32i64i64i32 : Code := .cons (.block (.cons (.const 1) <| .cons (.brIf 0) <| .cons (.call 1) <| .nil)) <| .cons (.get 0) <| .cons (.const 3) <| .cons .i32Eq <| .cons (.get 0) <| .cons (.const 5) <| .cons .i32GeU <| .cons .i32Or <| .cons (.ite false (.cons (.const 8) <| .cons .ret <| .nil) (.nil)) <| .cons (.const 70) <| .nil

/-- The code of `fd_stub_i32i32i32i64i32` in library.go. -/
def code_fd_stub_i32i32i32i64i32 : Code := .cons (.block (.cons (.const 1) <| .cons (.brIf 0) <| .cons (.call 1) <| .nil)) <| .cons (.get 0) <| .cons (.const 3) <| .cons .i32Eq <| .cons (.get 0) <| .cons (.const 5) <| .cons .i32GeU <| .cons .i32Or <| .cons (.ite false (.cons (.const 8) <| .cons .ret <| .nil) (.nil)) <| .cons (.const 70) <| .nil

/-- A loop's body in `fd_write`. -/
def loop_fd_write_0 : Code := .cons (.get 2) <| .cons .i32Eqz <| .cons (.brIf 2) <| .cons (.get 1) <| .cons (.load 4 4) <| .cons (.set 5) <| .cons (.get 1) <| .cons (.load 4 0) <| .cons (.get 5) <| .cons (.call 7) <| .cons (.set 6) <| .cons (.get 4) <| .cons (.get 6) <| .cons .i32Add <| .cons (.set 4) <| .cons (.get 6) <| .cons (.get 5) <| .cons .i32Ne <| .cons (.brIf 2) <| .cons (.get 1) <| .cons (.const 8) <| .cons .i32Add <| .cons (.set 1) <| .cons (.get 2) <| .cons (.const 1) <| .cons .i32Sub <| .cons (.set 2) <| .cons (.br 0) <| .nil

/-- A loop's body in `fd_write`. -/
def loop_fd_write_1 : Code := .cons (.get 2) <| .cons .i32Eqz <| .cons (.brIf 2) <| .cons (.get 1) <| .cons (.load 4 4) <| .cons (.set 5) <| .cons (.get 1) <| .cons (.load 4 0) <| .cons (.get 5) <| .cons (.call 0) <| .cons (.get 4) <| .cons (.get 5) <| .cons .i32Add <| .cons (.set 4) <| .cons (.get 1) <| .cons (.const 8) <| .cons .i32Add <| .cons (.set 1) <| .cons (.get 2) <| .cons (.const 1) <| .cons .i32Sub <| .cons (.set 2) <| .cons (.br 0) <| .nil

/-- The code of `fd_write` in library.go. -/
def code_fd_write : Code := .cons (.block (.cons (.const 1) <| .cons (.brIf 0) <| .cons (.call 1) <| .nil)) <| .cons (.get 0) <| .cons (.const 3) <| .cons .i32Eq <| .cons (.get 0) <| .cons (.const 5) <| .cons .i32GeU <| .cons .i32Or <| .cons (.ite false (.cons (.const 8) <| .cons .ret <| .nil) (.nil)) <| .cons (.get 0) <| .cons .i32Eqz <| .cons (.ite false (.cons (.const 28) <| .cons .ret <| .nil) (.nil)) <| .cons (.block (.cons (.get 0) <| .cons (.const 4) <| .cons .i32Eq <| .cons (.ite false (.cons (.loop loop_fd_write_0) <| .nil) (.cons (.loop loop_fd_write_1) <| .nil)) <| .nil)) <| .cons (.get 3) <| .cons (.get 4) <| .cons (.store 4 0) <| .cons (.get 4) <| .cons (.ite false (.cons (.const 0) <| .cons .ret <| .nil) (.nil)) <| .cons (.block (.cons (.const 1) <| .cons (.brIf 0) <| .cons (.call 1) <| .nil)) <| .cons (.const 6) <| .nil

/-- The code of `path_stub_i32i32i32` in library.go. -/
def code_path_stub_i32i32i32 : Code := .cons (.block (.cons (.const 1) <| .cons (.brIf 0) <| .cons (.call 1) <| .nil)) <| .cons (.const 44) <| .nil

/-- The code of `path_stub_i32i32i32i32i32` in library.go. -/
def code_path_stub_i32i32i32i32i32 : Code := .cons (.block (.cons (.const 1) <| .cons (.brIf 0) <| .cons (.call 1) <| .nil)) <| .cons (.const 44) <| .nil

/-- The code of `path_stub_i32i32i32i32i32i32` in library.go. -/
def code_path_stub_i32i32i32i32i32i32 : Code := .cons (.block (.cons (.const 1) <| .cons (.brIf 0) <| .cons (.call 1) <| .nil)) <| .cons (.const 44) <| .nil

/-- The code of `path_stub_i32i32i32i32i32i32i32` in library.go. -/
def code_path_stub_i32i32i32i32i32i32i32 : Code := .cons (.block (.cons (.const 1) <| .cons (.brIf 0) <| .cons (.call 1) <| .nil)) <| .cons (.const 44) <| .nil

/-- The code of `path_stub_i32i32i32i32i64i64i32` in library.go. -/
def code_path_stub_i32i32i32i32i64i64i32 : Code := .cons (.block (.cons (.const 1) <| .cons (.brIf 0) <| .cons (.call 1) <| .nil)) <| .cons (.const 44) <| .nil

/-- The code of `path_stub_i32i32i32i32i32i64i64i32i32` in library.go. -/
def code_path_stub_i32i32i32i32i32i64i64i32i32 : Code := .cons (.block (.cons (.const 1) <| .cons (.brIf 0) <| .cons (.call 1) <| .nil)) <| .cons (.const 44) <| .nil

/-- A loop's body in `poll_oneoff`. -/
def loop_poll_oneoff_0 : Code := .cons (.get 2) <| .cons .i32Eqz <| .cons (.brIf 1) <| .cons (.get 0) <| .cons (.load 1 8) <| .cons (.set 4) <| .cons (.get 4) <| .cons (.const 3) <| .cons .i32GeU <| .cons (.ite false (.cons (.const 28) <| .cons .ret <| .nil) (.nil)) <| .cons (.get 4) <| .cons .i32Eqz <| .cons (.ite false (.cons (.const 127) <| .cons (.call 5) <| .cons .drop <| .cons (.br 1) <| .nil) (.nil)) <| .cons (.get 0) <| .cons (.load 4 16) <| .cons (.set 5) <| .cons (.get 5) <| .cons (.const 4) <| .cons .i32Eq <| .cons (.ite false (.cons (.get 4) <| .cons (.const 1) <| .cons .i32Eq <| .cons (.ite false (.cons (.const 1) <| .cons (.set 6) <| .cons (.get 0) <| .cons (.load 8 0) <| .cons (.set 8) <| .nil) (.nil)) <| .cons (.get 4) <| .cons (.const 2) <| .cons .i32Eq <| .cons (.ite false (.cons (.const 4) <| .cons (.set 7) <| .cons (.get 0) <| .cons (.load 8 0) <| .cons (.set 9) <| .nil) (.nil)) <| .nil) (.cons (.get 5) <| .cons (.const 3) <| .cons .i32GeU <| .cons (.ite false (.cons (.get 1) <| .cons (.get 0) <| .cons (.load 8 0) <| .cons (.store 8 0) <| .cons (.get 1) <| .cons (.const 8) <| .cons (.store 2 8) <| .cons (.get 1) <| .cons (.const 32) <| .cons .i32Add <| .cons (.set 1) <| .cons (.get 11) <| .cons (.const 1) <| .cons .i32Add <| .cons (.set 11) <| .nil) (.nil)) <| .nil)) <| .cons (.get 5) <| .cons (.const 1) <| .cons .i32Eq <| .cons (.get 5) <| .cons (.const 2) <| .cons .i32Eq <| .cons .i32Or <| .cons (.get 4) <| .cons (.const 2) <| .cons .i32Eq <| .cons .i32And <| .cons (.ite false (.cons (.get 1) <| .cons (.get 0) <| .cons (.load 8 0) <| .cons (.store 8 0) <| .cons (.get 1) <| .cons (.const 0) <| .cons (.store 2 8) <| .cons (.get 1) <| .cons (.const 2) <| .cons (.store 1 10) <| .cons (.get 1) <| .cons (.const 1) <| .cons (.store 8 16) <| .cons (.get 1) <| .cons (.const 0) <| .cons (.store 2 24) <| .cons (.get 1) <| .cons (.const 32) <| .cons .i32Add <| .cons (.set 1) <| .cons (.get 11) <| .cons (.const 1) <| .cons .i32Add <| .cons (.set 11) <| .nil) (.nil)) <| .cons (.get 0) <| .cons (.const 56) <| .cons .i32Add <| .cons (.set 0) <| .cons (.get 2) <| .cons (.const 1) <| .cons .i32Sub <| .cons (.set 2) <| .cons (.br 0) <| .nil

/-- The code of `poll_oneoff` in library.go. -/
def code_poll_oneoff : Code := .cons (.block (.cons (.const 1) <| .cons (.brIf 0) <| .cons (.call 1) <| .nil)) <| .cons (.block (.cons (.loop loop_poll_oneoff_0) <| .nil)) <| .cons (.get 6) <| .cons (.get 7) <| .cons (.call 2) <| .cons (.set 10) <| .cons (.get 10) <| .cons (.const 1) <| .cons .i32And <| .cons (.ite false (.cons (.get 1) <| .cons (.get 8) <| .cons (.store 8 0) <| .cons (.get 1) <| .cons (.const 0) <| .cons (.store 2 8) <| .cons (.get 1) <| .cons (.const 1) <| .cons (.store 1 10) <| .cons (.get 1) <| .cons (.const 65536) <| .cons (.store 8 16) <| .cons (.get 1) <| .cons (.const 0) <| .cons (.store 2 24) <| .cons (.get 1) <| .cons (.const 32) <| .cons .i32Add <| .cons (.set 1) <| .cons (.get 11) <| .cons (.const 1) <| .cons .i32Add <| .cons (.set 11) <| .nil) (.nil)) <| .cons (.get 10) <| .cons (.const 4) <| .cons .i32And <| .cons (.ite false (.cons (.get 1) <| .cons (.get 9) <| .cons (.store 8 0) <| .cons (.get 1) <| .cons (.const 0) <| .cons (.store 2 8) <| .cons (.get 1) <| .cons (.const 2) <| .cons (.store 1 10) <| .cons (.get 1) <| .cons (.const 65536) <| .cons (.store 8 16) <| .cons (.get 1) <| .cons (.const 0) <| .cons (.store 2 24) <| .cons (.get 1) <| .cons (.const 32) <| .cons .i32Add <| .cons (.set 1) <| .cons (.get 11) <| .cons (.const 1) <| .cons .i32Add <| .cons (.set 11) <| .nil) (.nil)) <| .cons (.get 3) <| .cons (.get 11) <| .cons (.store 4 0) <| .cons (.block (.cons (.const 1) <| .cons (.brIf 0) <| .cons (.call 1) <| .nil)) <| .cons (.const 0) <| .nil

/-- A loop's body in `proc_exit`. -/
def loop_proc_exit_0 : Code := .cons (.get 0) <| .cons (.call 5) <| .cons .drop <| .cons (.br 0) <| .nil

/-- The code of `proc_exit` in library.go. -/
def code_proc_exit : Code := .cons (.block (.cons (.const 1) <| .cons (.brIf 0) <| .cons (.call 1) <| .nil)) <| .cons (.get 0) <| .cons (.const 0) <| .cons .i32Ne <| .cons (.const 2) <| .cons .i32Or <| .cons (.set 0) <| .cons (.loop loop_proc_exit_0) <| .nil

/-- The code of `proc_raise` in library.go. -/
def code_proc_raise : Code := .cons (.block (.cons (.const 1) <| .cons (.brIf 0) <| .cons (.call 1) <| .nil)) <| .cons (.const 127) <| .cons (.call 5) <| .cons .i32Wrap <| .nil

/-- A loop's body in `random_get`. -/
def loop_random_get_0 : Code := .cons (.get 1) <| .cons .i32Eqz <| .cons (.ite false (.cons (.br 2) <| .nil) (.nil)) <| .cons (.call 3) <| .cons (.set 3) <| .cons (.get 3) <| .cons (.const 0) <| .cons .i32GeS <| .cons (.ite false (.cons (.get 0) <| .cons (.get 3) <| .cons (.store 1 0) <| .cons (.get 0) <| .cons (.const 1) <| .cons .i32Add <| .cons (.set 0) <| .cons (.get 1) <| .cons (.const 1) <| .cons .i32Sub <| .cons (.set 1) <| .nil) (.cons (.const 127) <| .cons (.call 5) <| .cons (.set 2) <| .cons (.get 2) <| .cons (.const 0) <| .cons .i64Ne <| .cons (.ite false (.cons (.br 3) <| .nil) (.nil)) <| .nil)) <| .cons (.br 0) <| .nil

/-- The code of `random_get` in library.go. -/
def code_random_get : Code := .cons (.block (.cons (.const 1) <| .cons (.brIf 0) <| .cons (.call 1) <| .nil)) <| .cons (.block (.cons (.loop loop_random_get_0) <| .nil)) <| .cons (.get 2) <| .cons .i32Wrap <| .nil

/-- The code of `sched_yield` in library.go. -/
def code_sched_yield : Code := .cons (.block (.cons (.const 1) <| .cons (.brIf 0) <| .cons (.call 1) <| .nil)) <| .cons (.const 0) <| .nil

/-- The code of `sock_recv` in library.go. -/
def code_sock_recv : Code := .cons (.block (.cons (.const 1) <| .cons (.brIf 0) <| .cons (.call 1) <| .nil)) <| .cons (.get 0) <| .cons (.const 3) <| .cons .i32Eq <| .cons (.get 0) <| .cons (.const 5) <| .cons .i32GeU <| .cons .i32Or <| .cons (.ite false (.cons (.const 8) <| .cons .ret <| .nil) (.nil)) <| .cons (.const 57) <| .nil

/-- The code of `sock_send` in library.go. -/
def code_sock_send : Code := .cons (.block (.cons (.const 1) <| .cons (.brIf 0) <| .cons (.call 1) <| .nil)) <| .cons (.get 0) <| .cons (.const 3) <| .cons .i32Eq <| .cons (.get 0) <| .cons (.const 5) <| .cons .i32GeU <| .cons .i32Or <| .cons (.ite false (.cons (.const 8) <| .cons .ret <| .nil) (.nil)) <| .cons (.const 57) <| .nil

/-- The code of `sock_shutdown` in library.go. -/
def code_sock_shutdown : Code := .cons (.block (.cons (.const 1) <| .cons (.brIf 0) <| .cons (.call 1) <| .nil)) <| .cons (.get 0) <| .cons (.const 3) <| .cons .i32Eq <| .cons (.get 0) <| .cons (.const 5) <| .cons .i32GeU <| .cons .i32Or <| .cons (.ite false (.cons (.const 8) <| .cons .ret <| .nil) (.nil)) <| .cons (.const 57) <| .nil

/-- The functions' names, in order of index, with their numbers of local variables. -/
def libExports : List (List Nat × Nat) := [("args_get".toList.map Char.toNat, 8), ("args_sizes_get".toList.map Char.toNat, 9), ("clock_res_get".toList.map Char.toNat, 10), ("clock_time_get".toList.map Char.toNat, 11), ("environ_get".toList.map Char.toNat, 12), ("environ_sizes_get".toList.map Char.toNat, 13), ("io".toList.map Char.toNat, 14), ("fd".toList.map Char.toNat, 15), ("fd_close".toList.map Char.toNat, 16), ("fd_fdstat_get".toList.map Char.toNat, 17), ("fd_fdstat_set_flags".toList.map Char.toNat, 18), ("fd_fdstat_set_rights".toList.map Char.toNat, 19), ("fd_filestat_get".toList.map Char.toNat, 20), ("fd_read".toList.map Char.toNat, 21), ("fd_renumber".toList.map Char.toNat, 22), ("fd_stub_i32".toList.map Char.toNat, 23), ("fd_stub_i32i32".toList.map Char.toNat, 24), ("fd_stub_i32i64".toList.map Char.toNat, 25), ("fd_stub_i32i32i32".toList.map Char.toNat, 26), ("fd_stub_i32i64i64".toList.map Char.toNat, 27), ("fd_stub_i32i64i32i32".toList.map Char.toNat, 28), ("fd_stub_i32i64i64i32".toList.map Char.toNat, 29), ("fd_stub_i32i32i32i64i32".toList.map Char.toNat, 30), ("fd_write".toList.map Char.toNat, 31), ("path_stub_i32i32i32".toList.map Char.toNat, 32), ("path_stub_i32i32i32i32i32".toList.map Char.toNat, 33), ("path_stub_i32i32i32i32i32i32".toList.map Char.toNat, 34), ("path_stub_i32i32i32i32i32i32i32".toList.map Char.toNat, 35), ("path_stub_i32i32i32i32i64i64i32".toList.map Char.toNat, 36), ("path_stub_i32i32i32i32i32i64i64i32i32".toList.map Char.toNat, 37), ("poll_oneoff".toList.map Char.toNat, 38), ("proc_exit".toList.map Char.toNat, 39), ("proc_raise".toList.map Char.toNat, 40), ("random_get".toList.map Char.toNat, 41), ("sched_yield".toList.map Char.toNat, 42), ("sock_recv".toList.map Char.toNat, 43), ("sock_send".toList.map Char.toNat, 44), ("sock_shutdown".toList.map Char.toNat, 45)]

/-- The embedded library. -/
def lib : Module where
  types := [⟨[127, 127], []⟩, ⟨[], []⟩, ⟨[127, 127], [127]⟩, ⟨[], [127]⟩, ⟨[127], [126]⟩, ⟨[127, 126, 127], [127]⟩, ⟨[127, 127, 127, 127, 127, 127, 127], []⟩, ⟨[127], [127]⟩, ⟨[127, 126, 126], [127]⟩, ⟨[127, 127, 127, 127], [127]⟩, ⟨[127, 126], [127]⟩, ⟨[127, 127, 127], [127]⟩, ⟨[127, 126, 127, 127], [127]⟩, ⟨[127, 126, 126, 127], [127]⟩, ⟨[127, 127, 127, 126, 127], [127]⟩, ⟨[127, 127, 127, 127, 127], [127]⟩, ⟨[127, 127, 127, 127, 127, 127], [127]⟩, ⟨[127, 127, 127, 127, 127, 127, 127], [127]⟩, ⟨[127, 127, 127, 127, 126, 126, 127], [127]⟩, ⟨[127, 127, 127, 127, 127, 126, 126, 127, 127], [127]⟩, ⟨[127], []⟩]
  imports := [⟨"rt".toList.map Char.toNat, "debug".toList.map Char.toNat, 0⟩, ⟨"rt".toList.map Char.toNat, "nop".toList.map Char.toNat, 1⟩, ⟨"rt".toList.map Char.toNat, "poll".toList.map Char.toNat, 2⟩, ⟨"rt".toList.map Char.toNat, "random".toList.map Char.toNat, 3⟩, ⟨"rt".toList.map Char.toNat, "read".toList.map Char.toNat, 2⟩, ⟨"rt".toList.map Char.toNat, "stop".toList.map Char.toNat, 4⟩, ⟨"rt".toList.map Char.toNat, "time".toList.map Char.toNat, 4⟩, ⟨"rt".toList.map Char.toNat, "write".toList.map Char.toNat, 2⟩]
  funcs := [2, 2, 2, 5, 2, 2, 6, 3, 7, 2, 2, 8, 2, 9, 2, 7, 2, 10, 11, 8, 12, 13, 14, 9, 11, 15, 16, 17, 18, 19, 9, 20, 7, 2, 3, 16, 15, 2]
  memory := some 0
  exports := libExports
  codes := [(0, code_args_get), (0, code_args_sizes_get), (0, code_clock_res_get), (1, code_clock_time_get), (0, code_environ_get), (0, code_environ_sizes_get), (4, code_io), (0, code_fd), (1, code_fd_close), (2, code_fd_fdstat_get), (0, code_fd_fdstat_set_flags), (1, code_fd_fdstat_set_rights), (0, code_fd_filestat_get), (3, code_fd_read), (1, code_fd_renumber), (0, code_fd_stub_i32), (0, code_fd_stub_i32i32), (0, code_fd_stub_i32i64), (0, code_fd_stub_i32i32i32), (0, code_fd_stub_i32i64i64), (0, code_fd_stub_i32i64i32i32), (0, code_fd_stub_i32i64i64i32), (0, code_fd_stub_i32i32i32i64i32), (3, code_fd_write), (0, code_path_stub_i32i32i32), (0, code_path_stub_i32i32i32i32i32), (0, code_path_stub_i32i32i32i32i32i32), (0, code_path_stub_i32i32i32i32i32i32i32), (0, code_path_stub_i32i32i32i32i64i64i32), (0, code_path_stub_i32i32i32i32i32i64i64i32i32), (8, code_poll_oneoff), (0, code_proc_exit), (0, code_proc_raise), (2, code_random_get), (0, code_sched_yield), (0, code_sock_recv), (0, code_sock_send), (0, code_sock_shutdown)]

end Gate.Wasm
