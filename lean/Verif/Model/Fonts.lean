import Verif.Model.Pattern
/-! The fonts of fonts.py and the font generator of source_code_gen/fontgen.py. -/

namespace Verif.Model

/-- fonts.py 19-275 `font8x8`: the height of the glyphs and the rows of 256 glyphs, eight pixels in each byte -/
def font8x8 : Bytes := [8,
  0, 0, 0, 0, 0, 0, 0, 0, 126, 129, 165, 129, 189, 153, 129, 126,
  126, 255, 219, 255, 195, 231, 255, 126, 108, 254, 254, 254, 124, 56, 16, 0,
  16, 56, 124, 254, 124, 56, 16, 0, 56, 124, 56, 254, 254, 214, 16, 56,
  16, 16, 56, 124, 254, 124, 16, 56, 0, 0, 24, 60, 60, 24, 0, 0,
  255, 255, 231, 195, 195, 231, 255, 255, 0, 60, 102, 66, 66, 102, 60, 0,
  255, 195, 153, 189, 189, 153, 195, 255, 15, 7, 15, 125, 204, 204, 204, 120,
  60, 102, 102, 102, 60, 24, 126, 24, 63, 51, 63, 48, 48, 112, 240, 224,
  127, 99, 127, 99, 99, 103, 230, 192, 24, 219, 60, 231, 231, 60, 219, 24,
  128, 224, 248, 254, 248, 224, 128, 0, 2, 14, 62, 254, 62, 14, 2, 0,
  24, 60, 126, 24, 24, 126, 60, 24, 102, 102, 102, 102, 102, 0, 102, 0,
  127, 219, 219, 123, 27, 27, 27, 0, 62, 99, 56, 108, 108, 56, 204, 120,
  0, 0, 0, 0, 126, 126, 126, 0, 24, 60, 126, 24, 126, 60, 24, 255,
  24, 60, 126, 24, 24, 24, 24, 0, 24, 24, 24, 24, 126, 60, 24, 0,
  0, 24, 12, 254, 12, 24, 0, 0, 0, 48, 96, 254, 96, 48, 0, 0,
  0, 0, 192, 192, 192, 254, 0, 0, 0, 36, 102, 255, 102, 36, 0, 0,
  0, 24, 60, 126, 255, 255, 0, 0, 0, 255, 255, 126, 60, 24, 0, 0,
  0, 0, 0, 0, 0, 0, 0, 0, 48, 120, 120, 48, 48, 0, 48, 0,
  108, 108, 108, 0, 0, 0, 0, 0, 108, 108, 254, 108, 254, 108, 108, 0,
  48, 124, 192, 120, 12, 248, 48, 0, 0, 198, 204, 24, 48, 102, 198, 0,
  56, 108, 56, 118, 220, 204, 118, 0, 96, 96, 192, 0, 0, 0, 0, 0,
  24, 48, 96, 96, 96, 48, 24, 0, 96, 48, 24, 24, 24, 48, 96, 0,
  0, 102, 60, 255, 60, 102, 0, 0, 0, 48, 48, 252, 48, 48, 0, 0,
  0, 0, 0, 0, 0, 48, 48, 96, 0, 0, 0, 252, 0, 0, 0, 0,
  0, 0, 0, 0, 0, 48, 48, 0, 6, 12, 24, 48, 96, 192, 128, 0,
  124, 198, 206, 222, 246, 230, 124, 0, 48, 112, 48, 48, 48, 48, 252, 0,
  120, 204, 12, 56, 96, 204, 252, 0, 120, 204, 12, 56, 12, 204, 120, 0,
  28, 60, 108, 204, 254, 12, 30, 0, 252, 192, 248, 12, 12, 204, 120, 0,
  56, 96, 192, 248, 204, 204, 120, 0, 252, 204, 12, 24, 48, 48, 48, 0,
  120, 204, 204, 120, 204, 204, 120, 0, 120, 204, 204, 124, 12, 24, 112, 0,
  0, 48, 48, 0, 0, 48, 48, 0, 0, 48, 48, 0, 0, 48, 48, 96,
  24, 48, 96, 192, 96, 48, 24, 0, 0, 0, 252, 0, 0, 252, 0, 0,
  96, 48, 24, 12, 24, 48, 96, 0, 120, 204, 12, 24, 48, 0, 48, 0,
  124, 198, 222, 222, 222, 192, 120, 0, 48, 120, 204, 204, 252, 204, 204, 0,
  252, 102, 102, 124, 102, 102, 252, 0, 60, 102, 192, 192, 192, 102, 60, 0,
  248, 108, 102, 102, 102, 108, 248, 0, 254, 98, 104, 120, 104, 98, 254, 0,
  254, 98, 104, 120, 104, 96, 240, 0, 60, 102, 192, 192, 206, 102, 62, 0,
  204, 204, 204, 252, 204, 204, 204, 0, 120, 48, 48, 48, 48, 48, 120, 0,
  30, 12, 12, 12, 204, 204, 120, 0, 230, 102, 108, 120, 108, 102, 230, 0,
  240, 96, 96, 96, 98, 102, 254, 0, 198, 238, 254, 254, 214, 198, 198, 0,
  198, 230, 246, 222, 206, 198, 198, 0, 56, 108, 198, 198, 198, 108, 56, 0,
  252, 102, 102, 124, 96, 96, 240, 0, 120, 204, 204, 204, 220, 120, 28, 0,
  252, 102, 102, 124, 108, 102, 230, 0, 120, 204, 96, 48, 24, 204, 120, 0,
  252, 180, 48, 48, 48, 48, 120, 0, 204, 204, 204, 204, 204, 204, 252, 0,
  204, 204, 204, 204, 204, 120, 48, 0, 198, 198, 198, 214, 254, 238, 198, 0,
  198, 198, 108, 56, 56, 108, 198, 0, 204, 204, 204, 120, 48, 48, 120, 0,
  254, 198, 140, 24, 50, 102, 254, 0, 120, 96, 96, 96, 96, 96, 120, 0,
  192, 96, 48, 24, 12, 6, 2, 0, 120, 24, 24, 24, 24, 24, 120, 0,
  16, 56, 108, 198, 0, 0, 0, 0, 0, 0, 0, 0, 0, 0, 0, 255,
  48, 48, 24, 0, 0, 0, 0, 0, 0, 0, 120, 12, 124, 204, 118, 0,
  224, 96, 96, 124, 102, 102, 220, 0, 0, 0, 120, 204, 192, 204, 120, 0,
  28, 12, 12, 124, 204, 204, 118, 0, 0, 0, 120, 204, 252, 192, 120, 0,
  56, 108, 96, 240, 96, 96, 240, 0, 0, 0, 118, 204, 204, 124, 12, 248,
  224, 96, 108, 118, 102, 102, 230, 0, 48, 0, 112, 48, 48, 48, 120, 0,
  12, 0, 12, 12, 12, 204, 204, 120, 224, 96, 102, 108, 120, 108, 230, 0,
  112, 48, 48, 48, 48, 48, 120, 0, 0, 0, 204, 254, 254, 214, 198, 0,
  0, 0, 248, 204, 204, 204, 204, 0, 0, 0, 120, 204, 204, 204, 120, 0,
  0, 0, 220, 102, 102, 124, 96, 240, 0, 0, 118, 204, 204, 124, 12, 30,
  0, 0, 220, 118, 102, 96, 240, 0, 0, 0, 124, 192, 120, 12, 248, 0,
  16, 48, 124, 48, 48, 52, 24, 0, 0, 0, 204, 204, 204, 204, 118, 0,
  0, 0, 204, 204, 204, 120, 48, 0, 0, 0, 198, 214, 254, 254, 108, 0,
  0, 0, 198, 108, 56, 108, 198, 0, 0, 0, 204, 204, 204, 124, 12, 248,
  0, 0, 252, 152, 48, 100, 252, 0, 28, 48, 48, 224, 48, 48, 28, 0,
  24, 24, 24, 0, 24, 24, 24, 0, 224, 48, 48, 28, 48, 48, 224, 0,
  118, 220, 0, 0, 0, 0, 0, 0, 0, 16, 56, 108, 198, 198, 254, 0,
  120, 204, 192, 204, 120, 24, 12, 120, 0, 204, 0, 204, 204, 204, 126, 0,
  28, 0, 120, 204, 252, 192, 120, 0, 126, 195, 60, 6, 62, 102, 63, 0,
  204, 0, 120, 12, 124, 204, 126, 0, 224, 0, 120, 12, 124, 204, 126, 0,
  48, 48, 120, 12, 124, 204, 126, 0, 0, 0, 120, 192, 192, 120, 12, 56,
  126, 195, 60, 102, 126, 96, 60, 0, 204, 0, 120, 204, 252, 192, 120, 0,
  224, 0, 120, 204, 252, 192, 120, 0, 204, 0, 112, 48, 48, 48, 120, 0,
  124, 198, 56, 24, 24, 24, 60, 0, 224, 0, 112, 48, 48, 48, 120, 0,
  198, 56, 108, 198, 254, 198, 198, 0, 48, 48, 0, 120, 204, 252, 204, 0,
  28, 0, 252, 96, 120, 96, 252, 0, 0, 0, 127, 12, 127, 204, 127, 0,
  62, 108, 204, 254, 204, 204, 206, 0, 120, 204, 0, 120, 204, 204, 120, 0,
  0, 204, 0, 120, 204, 204, 120, 0, 0, 224, 0, 120, 204, 204, 120, 0,
  120, 204, 0, 204, 204, 204, 126, 0, 0, 224, 0, 204, 204, 204, 126, 0,
  0, 204, 0, 204, 204, 124, 12, 248, 195, 24, 60, 102, 102, 60, 24, 0,
  204, 0, 204, 204, 204, 204, 120, 0, 24, 24, 126, 192, 192, 126, 24, 24,
  56, 108, 100, 240, 96, 230, 252, 0, 204, 204, 120, 252, 48, 252, 48, 48,
  248, 204, 204, 250, 198, 207, 198, 199, 14, 27, 24, 60, 24, 24, 216, 112,
  28, 0, 120, 12, 124, 204, 126, 0, 56, 0, 112, 48, 48, 48, 120, 0,
  0, 28, 0, 120, 204, 204, 120, 0, 0, 28, 0, 204, 204, 204, 126, 0,
  0, 248, 0, 248, 204, 204, 204, 0, 252, 0, 204, 236, 252, 220, 204, 0,
  60, 108, 108, 62, 0, 126, 0, 0, 56, 108, 108, 56, 0, 124, 0, 0,
  48, 0, 48, 96, 192, 204, 120, 0, 0, 0, 0, 252, 192, 192, 0, 0,
  0, 0, 0, 252, 12, 12, 0, 0, 195, 198, 204, 222, 51, 102, 204, 15,
  195, 198, 204, 219, 55, 111, 207, 3, 24, 24, 0, 24, 24, 24, 24, 0,
  0, 51, 102, 204, 102, 51, 0, 0, 0, 204, 102, 51, 102, 204, 0, 0,
  34, 136, 34, 136, 34, 136, 34, 136, 85, 170, 85, 170, 85, 170, 85, 170,
  219, 119, 219, 238, 219, 119, 219, 238, 24, 24, 24, 24, 24, 24, 24, 24,
  24, 24, 24, 24, 248, 24, 24, 24, 24, 24, 248, 24, 248, 24, 24, 24,
  54, 54, 54, 54, 246, 54, 54, 54, 0, 0, 0, 0, 254, 54, 54, 54,
  0, 0, 248, 24, 248, 24, 24, 24, 54, 54, 246, 6, 246, 54, 54, 54,
  54, 54, 54, 54, 54, 54, 54, 54, 0, 0, 254, 6, 246, 54, 54, 54,
  54, 54, 246, 6, 254, 0, 0, 0, 54, 54, 54, 54, 254, 0, 0, 0,
  24, 24, 248, 24, 248, 0, 0, 0, 0, 0, 0, 0, 248, 24, 24, 24,
  24, 24, 24, 24, 31, 0, 0, 0, 24, 24, 24, 24, 255, 0, 0, 0,
  0, 0, 0, 0, 255, 24, 24, 24, 24, 24, 24, 24, 31, 24, 24, 24,
  0, 0, 0, 0, 255, 0, 0, 0, 24, 24, 24, 24, 255, 24, 24, 24,
  24, 24, 31, 24, 31, 24, 24, 24, 54, 54, 54, 54, 55, 54, 54, 54,
  54, 54, 55, 48, 63, 0, 0, 0, 0, 0, 63, 48, 55, 54, 54, 54,
  54, 54, 247, 0, 255, 0, 0, 0, 0, 0, 255, 0, 247, 54, 54, 54,
  54, 54, 55, 48, 55, 54, 54, 54, 0, 0, 255, 0, 255, 0, 0, 0,
  54, 54, 247, 0, 247, 54, 54, 54, 24, 24, 255, 0, 255, 0, 0, 0,
  54, 54, 54, 54, 255, 0, 0, 0, 0, 0, 255, 0, 255, 24, 24, 24,
  0, 0, 0, 0, 255, 54, 54, 54, 54, 54, 54, 54, 63, 0, 0, 0,
  24, 24, 31, 24, 31, 0, 0, 0, 0, 0, 31, 24, 31, 24, 24, 24,
  0, 0, 0, 0, 63, 54, 54, 54, 54, 54, 54, 54, 255, 54, 54, 54,
  24, 24, 255, 24, 255, 24, 24, 24, 24, 24, 24, 24, 248, 0, 0, 0,
  0, 0, 0, 0, 31, 24, 24, 24, 255, 255, 255, 255, 255, 255, 255, 255,
  0, 0, 0, 0, 255, 255, 255, 255, 240, 240, 240, 240, 240, 240, 240, 240,
  15, 15, 15, 15, 15, 15, 15, 15, 255, 255, 255, 255, 0, 0, 0, 0,
  0, 0, 118, 220, 200, 220, 118, 0, 0, 120, 204, 248, 204, 248, 192, 192,
  0, 252, 204, 192, 192, 192, 192, 0, 0, 254, 108, 108, 108, 108, 108, 0,
  252, 204, 96, 48, 96, 204, 252, 0, 0, 0, 126, 216, 216, 216, 112, 0,
  0, 102, 102, 102, 102, 124, 96, 192, 0, 118, 220, 24, 24, 24, 24, 0,
  252, 48, 120, 204, 204, 120, 48, 252, 56, 108, 198, 254, 198, 108, 56, 0,
  56, 108, 198, 198, 108, 108, 238, 0, 28, 48, 24, 124, 204, 204, 120, 0,
  0, 0, 126, 219, 219, 126, 0, 0, 6, 12, 126, 219, 219, 126, 96, 192,
  56, 96, 192, 248, 192, 96, 56, 0, 120, 204, 204, 204, 204, 204, 204, 0,
  0, 252, 0, 252, 0, 252, 0, 0, 48, 48, 252, 48, 48, 0, 252, 0,
  96, 48, 24, 48, 96, 0, 252, 0, 24, 48, 96, 48, 24, 0, 252, 0,
  14, 27, 27, 24, 24, 24, 24, 24, 24, 24, 24, 24, 24, 216, 216, 112,
  48, 48, 0, 252, 0, 48, 48, 0, 0, 118, 220, 0, 118, 220, 0, 0,
  56, 108, 108, 56, 0, 0, 0, 0, 0, 0, 0, 24, 24, 0, 0, 0,
  0, 0, 0, 0, 24, 0, 0, 0, 15, 12, 12, 12, 236, 108, 60, 28,
  120, 108, 108, 108, 108, 0, 0, 0, 112, 24, 48, 96, 120, 0, 0, 0,
  0, 0, 60, 60, 60, 60, 0, 0, 0, 0, 0, 0, 0, 0, 0, 0]

/-- fonts.py 277-533 `font8x8thin`: the height of the glyphs and the rows of 256 glyphs, eight pixels in each byte -/
def font8x8thin : Bytes := [8,
  0, 0, 0, 0, 0, 0, 0, 0, 126, 129, 165, 129, 189, 153, 129, 126,
  126, 255, 219, 255, 195, 231, 255, 126, 108, 254, 254, 254, 124, 56, 16, 0,
  16, 56, 124, 254, 124, 56, 16, 0, 56, 124, 56, 254, 254, 214, 16, 56,
  16, 16, 56, 124, 254, 124, 16, 56, 0, 0, 24, 60, 60, 24, 0, 0,
  255, 255, 231, 195, 195, 231, 255, 255, 0, 60, 102, 66, 66, 102, 60, 0,
  255, 195, 153, 189, 189, 153, 195, 255, 15, 3, 5, 125, 132, 132, 132, 120,
  60, 66, 66, 66, 60, 24, 126, 24, 63, 33, 63, 32, 32, 96, 224, 192,
  63, 33, 63, 33, 35, 103, 230, 192, 24, 219, 60, 231, 231, 60, 219, 24,
  128, 224, 248, 254, 248, 224, 128, 0, 2, 14, 62, 254, 62, 14, 2, 0,
  24, 60, 126, 24, 24, 126, 60, 24, 36, 36, 36, 36, 36, 0, 36, 0,
  127, 146, 146, 114, 18, 18, 18, 0, 62, 99, 56, 68, 68, 56, 204, 120,
  0, 0, 0, 0, 126, 126, 126, 0, 24, 60, 126, 24, 126, 60, 24, 255,
  16, 56, 124, 84, 16, 16, 16, 0, 16, 16, 16, 84, 124, 56, 16, 0,
  0, 24, 12, 254, 12, 24, 0, 0, 0, 48, 96, 254, 96, 48, 0, 0,
  0, 0, 64, 64, 64, 126, 0, 0, 0, 36, 102, 255, 102, 36, 0, 0,
  0, 16, 56, 124, 254, 254, 0, 0, 0, 254, 254, 124, 56, 16, 0, 0,
  0, 0, 0, 0, 0, 0, 0, 0, 16, 56, 56, 16, 16, 0, 16, 0,
  36, 36, 36, 0, 0, 0, 0, 0, 36, 36, 126, 36, 126, 36, 36, 0,
  24, 62, 64, 60, 2, 124, 24, 0, 0, 98, 100, 8, 16, 38, 70, 0,
  48, 72, 48, 86, 136, 136, 118, 0, 16, 16, 32, 0, 0, 0, 0, 0,
  16, 32, 64, 64, 64, 32, 16, 0, 32, 16, 8, 8, 8, 16, 32, 0,
  0, 68, 56, 254, 56, 68, 0, 0, 0, 16, 16, 124, 16, 16, 0, 0,
  0, 0, 0, 0, 0, 16, 16, 32, 0, 0, 0, 126, 0, 0, 0, 0,
  0, 0, 0, 0, 0, 16, 16, 0, 0, 2, 4, 8, 16, 32, 64, 0,
  60, 66, 70, 74, 82, 98, 60, 0, 16, 48, 80, 16, 16, 16, 124, 0,
  60, 66, 2, 12, 48, 66, 126, 0, 60, 66, 2, 28, 2, 66, 60, 0,
  8, 24, 40, 72, 254, 8, 28, 0, 126, 64, 124, 2, 2, 66, 60, 0,
  28, 32, 64, 124, 66, 66, 60, 0, 126, 66, 4, 8, 16, 16, 16, 0,
  60, 66, 66, 60, 66, 66, 60, 0, 60, 66, 66, 62, 2, 4, 56, 0,
  0, 16, 16, 0, 0, 16, 16, 0, 0, 16, 16, 0, 0, 16, 16, 32,
  8, 16, 32, 64, 32, 16, 8, 0, 0, 0, 126, 0, 0, 126, 0, 0,
  16, 8, 4, 2, 4, 8, 16, 0, 60, 66, 2, 4, 8, 0, 8, 0,
  60, 66, 94, 82, 94, 64, 60, 0, 24, 36, 66, 66, 126, 66, 66, 0,
  124, 34, 34, 60, 34, 34, 124, 0, 28, 34, 64, 64, 64, 34, 28, 0,
  120, 36, 34, 34, 34, 36, 120, 0, 126, 34, 40, 56, 40, 34, 126, 0,
  126, 34, 40, 56, 40, 32, 112, 0, 28, 34, 64, 64, 78, 34, 30, 0,
  66, 66, 66, 126, 66, 66, 66, 0, 56, 16, 16, 16, 16, 16, 56, 0,
  14, 4, 4, 4, 68, 68, 56, 0, 98, 36, 40, 48, 40, 36, 99, 0,
  112, 32, 32, 32, 32, 34, 126, 0, 99, 85, 73, 65, 65, 65, 65, 0,
  98, 82, 74, 70, 66, 66, 66, 0, 24, 36, 66, 66, 66, 36, 24, 0,
  124, 34, 34, 60, 32, 32, 112, 0, 60, 66, 66, 66, 74, 60, 3, 0,
  124, 34, 34, 60, 40, 36, 114, 0, 60, 66, 64, 60, 2, 66, 60, 0,
  127, 73, 8, 8, 8, 8, 28, 0, 66, 66, 66, 66, 66, 66, 60, 0,
  65, 65, 65, 65, 34, 20, 8, 0, 65, 65, 65, 73, 73, 73, 54, 0,
  65, 34, 20, 8, 20, 34, 65, 0, 65, 34, 20, 8, 8, 8, 28, 0,
  127, 66, 4, 8, 16, 33, 127, 0, 120, 64, 64, 64, 64, 64, 120, 0,
  128, 64, 32, 16, 8, 4, 2, 0, 120, 8, 8, 8, 8, 8, 120, 0,
  16, 40, 68, 130, 0, 0, 0, 0, 0, 0, 0, 0, 0, 0, 0, 255,
  16, 16, 8, 0, 0, 0, 0, 0, 0, 0, 60, 2, 62, 66, 63, 0,
  96, 32, 32, 46, 49, 49, 46, 0, 0, 0, 60, 66, 64, 66, 60, 0,
  6, 2, 2, 58, 70, 70, 59, 0, 0, 0, 60, 66, 126, 64, 60, 0,
  12, 18, 16, 56, 16, 16, 56, 0, 0, 0, 61, 66, 66, 62, 2, 124,
  96, 32, 44, 50, 34, 34, 98, 0, 16, 0, 48, 16, 16, 16, 56, 0,
  2, 0, 6, 2, 2, 66, 66, 60, 96, 32, 36, 40, 48, 40, 38, 0,
  48, 16, 16, 16, 16, 16, 56, 0, 0, 0, 118, 73, 73, 73, 73, 0,
  0, 0, 92, 98, 66, 66, 66, 0, 0, 0, 60, 66, 66, 66, 60, 0,
  0, 0, 108, 50, 50, 44, 32, 112, 0, 0, 54, 76, 76, 52, 4, 14,
  0, 0, 108, 50, 34, 32, 112, 0, 0, 0, 62, 64, 60, 2, 124, 0,
  16, 16, 124, 16, 16, 18, 12, 0, 0, 0, 66, 66, 66, 70, 58, 0,
  0, 0, 65, 65, 34, 20, 8, 0, 0, 0, 65, 73, 73, 73, 54, 0,
  0, 0, 68, 40, 16, 40, 68, 0, 0, 0, 66, 66, 66, 62, 2, 124,
  0, 0, 124, 8, 16, 32, 124, 0, 12, 16, 16, 96, 16, 16, 12, 0,
  16, 16, 16, 0, 16, 16, 16, 0, 48, 8, 8, 6, 8, 8, 48, 0,
  50, 76, 0, 0, 0, 0, 0, 0, 0, 8, 20, 34, 65, 65, 127, 0,
  60, 66, 64, 66, 60, 12, 2, 60, 0, 68, 0, 68, 68, 68, 62, 0,
  12, 0, 60, 66, 126, 64, 60, 0, 60, 66, 56, 4, 60, 68, 62, 0,
  66, 0, 56, 4, 60, 68, 62, 0, 48, 0, 56, 4, 60, 68, 62, 0,
  16, 0, 56, 4, 60, 68, 62, 0, 0, 0, 60, 64, 64, 60, 6, 28,
  60, 66, 60, 66, 126, 64, 60, 0, 66, 0, 60, 66, 126, 64, 60, 0,
  48, 0, 60, 66, 126, 64, 60, 0, 36, 0, 24, 8, 8, 8, 28, 0,
  124, 130, 48, 16, 16, 16, 56, 0, 48, 0, 24, 8, 8, 8, 28, 0,
  66, 24, 36, 66, 126, 66, 66, 0, 24, 24, 0, 60, 66, 126, 66, 0,
  12, 0, 124, 32, 56, 32, 124, 0, 0, 0, 51, 12, 63, 68, 59, 0,
  31, 36, 68, 127, 68, 68, 71, 0, 24, 36, 0, 60, 66, 66, 60, 0,
  0, 66, 0, 60, 66, 66, 60, 0, 32, 16, 0, 60, 66, 66, 60, 0,
  24, 36, 0, 66, 66, 66, 60, 0, 32, 16, 0, 66, 66, 66, 60, 0,
  0, 66, 0, 66, 66, 62, 2, 60, 66, 24, 36, 66, 66, 36, 24, 0,
  66, 0, 66, 66, 66, 66, 60, 0, 8, 8, 62, 64, 64, 62, 8, 8,
  24, 36, 32, 112, 32, 66, 124, 0, 68, 40, 124, 16, 124, 16, 16, 0,
  248, 76, 120, 68, 79, 68, 69, 230, 28, 18, 16, 124, 16, 16, 144, 96,
  12, 0, 56, 4, 60, 68, 62, 0, 12, 0, 24, 8, 8, 8, 28, 0,
  4, 8, 0, 60, 66, 66, 60, 0, 0, 4, 8, 66, 66, 66, 60, 0,
  50, 76, 0, 124, 66, 66, 66, 0, 52, 76, 0, 98, 82, 74, 70, 0,
  60, 68, 68, 62, 0, 126, 0, 0, 56, 68, 68, 56, 0, 124, 0, 0,
  16, 0, 16, 32, 64, 66, 60, 0, 0, 0, 0, 126, 64, 64, 0, 0,
  0, 0, 0, 126, 2, 2, 0, 0, 66, 196, 72, 246, 41, 67, 140, 31,
  66, 196, 74, 246, 42, 95, 130, 2, 0, 16, 0, 16, 16, 16, 16, 0,
  0, 18, 36, 72, 36, 18, 0, 0, 0, 72, 36, 18, 36, 72, 0, 0,
  34, 136, 34, 136, 34, 136, 34, 136, 85, 170, 85, 170, 85, 170, 85, 170,
  219, 119, 219, 238, 219, 119, 219, 238, 16, 16, 16, 16, 16, 16, 16, 16,
  16, 16, 16, 16, 240, 16, 16, 16, 16, 16, 240, 16, 240, 16, 16, 16,
  20, 20, 20, 20, 244, 20, 20, 20, 0, 0, 0, 0, 252, 20, 20, 20,
  0, 0, 240, 16, 240, 16, 16, 16, 20, 20, 244, 4, 244, 20, 20, 20,
  20, 20, 20, 20, 20, 20, 20, 20, 0, 0, 252, 4, 244, 20, 20, 20,
  20, 20, 244, 4, 252, 0, 0, 0, 20, 20, 20, 20, 252, 0, 0, 0,
  16, 16, 240, 16, 240, 0, 0, 0, 0, 0, 0, 0, 240, 16, 16, 16,
  16, 16, 16, 16, 31, 0, 0, 0, 16, 16, 16, 16, 255, 0, 0, 0,
  0, 0, 0, 0, 255, 16, 16, 16, 16, 16, 16, 16, 31, 16, 16, 16,
  0, 0, 0, 0, 255, 0, 0, 0, 16, 16, 16, 16, 255, 16, 16, 16,
  16, 16, 31, 16, 31, 16, 16, 16, 20, 20, 20, 20, 23, 20, 20, 20,
  20, 20, 23, 16, 31, 0, 0, 0, 0, 0, 31, 16, 23, 20, 20, 20,
  20, 20, 247, 0, 255, 0, 0, 0, 0, 0, 255, 0, 247, 20, 20, 20,
  20, 20, 23, 16, 23, 20, 20, 20, 0, 0, 255, 0, 255, 0, 0, 0,
  20, 20, 247, 0, 247, 20, 20, 20, 16, 16, 255, 0, 255, 0, 0, 0,
  20, 20, 20, 20, 255, 0, 0, 0, 0, 0, 255, 0, 255, 16, 16, 16,
  0, 0, 0, 0, 255, 20, 20, 20, 20, 20, 20, 20, 31, 0, 0, 0,
  16, 16, 31, 16, 31, 0, 0, 0, 0, 0, 31, 16, 31, 16, 16, 16,
  0, 0, 0, 0, 31, 20, 20, 20, 20, 20, 20, 20, 255, 20, 20, 20,
  16, 16, 255, 16, 255, 16, 16, 16, 16, 16, 16, 16, 240, 0, 0, 0,
  0, 0, 0, 0, 31, 16, 16, 16, 255, 255, 255, 255, 255, 255, 255, 255,
  0, 0, 0, 0, 255, 255, 255, 255, 240, 240, 240, 240, 240, 240, 240, 240,
  15, 15, 15, 15, 15, 15, 15, 15, 255, 255, 255, 255, 0, 0, 0, 0,
  0, 0, 49, 74, 68, 74, 49, 0, 0, 60, 66, 124, 66, 124, 64, 64,
  0, 126, 66, 64, 64, 64, 64, 0, 0, 63, 84, 20, 20, 20, 20, 0,
  126, 66, 32, 24, 32, 66, 126, 0, 0, 0, 62, 72, 72, 72, 48, 0,
  0, 68, 68, 68, 122, 64, 64, 128, 0, 51, 76, 8, 8, 8, 8, 0,
  124, 16, 56, 68, 68, 56, 16, 124, 24, 36, 66, 126, 66, 36, 24, 0,
  24, 36, 66, 66, 36, 36, 102, 0, 28, 32, 24, 60, 66, 66, 60, 0,
  0, 98, 149, 137, 149, 98, 0, 0, 2, 4, 60, 74, 82, 60, 64, 128,
  12, 16, 32, 60, 32, 16, 12, 0, 60, 66, 66, 66, 66, 66, 66, 0,
  0, 126, 0, 126, 0, 126, 0, 0, 16, 16, 124, 16, 16, 0, 124, 0,
  16, 8, 4, 8, 16, 0, 126, 0, 8, 16, 32, 16, 8, 0, 126, 0,
  12, 18, 18, 16, 16, 16, 16, 16, 16, 16, 16, 16, 16, 144, 144, 96,
  24, 24, 0, 126, 0, 24, 24, 0, 0, 50, 76, 0, 50, 76, 0, 0,
  48, 72, 72, 48, 0, 0, 0, 0, 0, 0, 0, 24, 24, 0, 0, 0,
  0, 0, 0, 0, 24, 0, 0, 0, 15, 8, 8, 8, 8, 200, 40, 24,
  120, 68, 68, 68, 68, 0, 0, 0, 48, 72, 16, 32, 120, 0, 0, 0,
  0, 0, 60, 60, 60, 60, 0, 0, 0, 0, 0, 0, 0, 0, 0, 0]

/-- fonts.py 535-791 `font8x14`: the height of the glyphs and the rows of 256 glyphs, eight pixels in each byte -/
def font8x14 : Bytes := [14,
  0, 0, 0, 0, 0, 0, 0, 0, 0, 0, 0, 0, 0, 0, 0, 0, 126, 129, 165, 129, 129, 189, 153, 129, 126, 0, 0, 0,
  0, 0, 126, 255, 219, 255, 255, 195, 231, 255, 126, 0, 0, 0, 0, 0, 0, 108, 254, 254, 254, 254, 124, 56, 16, 0, 0, 0,
  0, 0, 0, 16, 56, 124, 254, 124, 56, 16, 0, 0, 0, 0, 0, 0, 24, 60, 60, 231, 231, 231, 24, 24, 60, 0, 0, 0,
  0, 0, 24, 60, 126, 255, 255, 126, 24, 24, 60, 0, 0, 0, 0, 0, 0, 0, 0, 24, 60, 60, 24, 0, 0, 0, 0, 0,
  255, 255, 255, 255, 255, 231, 195, 195, 231, 255, 255, 255, 255, 255, 0, 0, 0, 0, 60, 102, 66, 66, 102, 60, 0, 0, 0, 0,
  255, 255, 255, 255, 195, 153, 189, 189, 153, 195, 255, 255, 255, 255, 0, 0, 30, 14, 26, 50, 120, 204, 204, 204, 120, 0, 0, 0,
  0, 0, 60, 102, 102, 102, 60, 24, 126, 24, 24, 0, 0, 0, 0, 0, 63, 51, 63, 48, 48, 48, 112, 240, 224, 0, 0, 0,
  0, 0, 127, 99, 127, 99, 99, 99, 103, 231, 230, 192, 0, 0, 0, 0, 24, 24, 219, 60, 231, 60, 219, 24, 24, 0, 0, 0,
  0, 0, 128, 192, 224, 248, 254, 248, 224, 192, 128, 0, 0, 0, 0, 0, 2, 6, 14, 62, 254, 62, 14, 6, 2, 0, 0, 0,
  0, 0, 24, 60, 126, 24, 24, 24, 126, 60, 24, 0, 0, 0, 0, 0, 102, 102, 102, 102, 102, 102, 0, 102, 102, 0, 0, 0,
  0, 0, 127, 219, 219, 219, 123, 27, 27, 27, 27, 0, 0, 0, 0, 124, 198, 96, 56, 108, 198, 198, 108, 56, 12, 198, 124, 0,
  0, 0, 0, 0, 0, 0, 0, 0, 254, 254, 254, 0, 0, 0, 0, 0, 24, 60, 126, 24, 24, 24, 126, 60, 24, 126, 0, 0,
  0, 0, 24, 60, 126, 24, 24, 24, 24, 24, 24, 0, 0, 0, 0, 0, 24, 24, 24, 24, 24, 24, 126, 60, 24, 0, 0, 0,
  0, 0, 0, 0, 24, 12, 254, 12, 24, 0, 0, 0, 0, 0, 0, 0, 0, 0, 48, 96, 254, 96, 48, 0, 0, 0, 0, 0,
  0, 0, 0, 0, 0, 192, 192, 192, 254, 0, 0, 0, 0, 0, 0, 0, 0, 0, 40, 108, 254, 108, 40, 0, 0, 0, 0, 0,
  0, 0, 0, 16, 56, 56, 124, 124, 254, 254, 0, 0, 0, 0, 0, 0, 0, 254, 254, 124, 124, 56, 56, 16, 0, 0, 0, 0,
  0, 0, 0, 0, 0, 0, 0, 0, 0, 0, 0, 0, 0, 0, 0, 0, 24, 60, 60, 60, 24, 24, 0, 24, 24, 0, 0, 0,
  0, 102, 102, 102, 36, 0, 0, 0, 0, 0, 0, 0, 0, 0, 0, 0, 108, 108, 254, 108, 108, 108, 254, 108, 108, 0, 0, 0,
  24, 24, 124, 198, 194, 192, 124, 6, 134, 198, 124, 24, 24, 0, 0, 0, 0, 0, 194, 198, 12, 24, 48, 102, 198, 0, 0, 0,
  0, 0, 56, 108, 108, 56, 118, 220, 204, 204, 118, 0, 0, 0, 0, 48, 48, 48, 96, 0, 0, 0, 0, 0, 0, 0, 0, 0,
  0, 0, 12, 24, 48, 48, 48, 48, 48, 24, 12, 0, 0, 0, 0, 0, 48, 24, 12, 12, 12, 12, 12, 24, 48, 0, 0, 0,
  0, 0, 0, 0, 102, 60, 255, 60, 102, 0, 0, 0, 0, 0, 0, 0, 0, 0, 24, 24, 126, 24, 24, 0, 0, 0, 0, 0,
  0, 0, 0, 0, 0, 0, 0, 0, 24, 24, 24, 48, 0, 0, 0, 0, 0, 0, 0, 0, 254, 0, 0, 0, 0, 0, 0, 0,
  0, 0, 0, 0, 0, 0, 0, 0, 0, 24, 24, 0, 0, 0, 0, 0, 2, 6, 12, 24, 48, 96, 192, 128, 0, 0, 0, 0,
  0, 0, 124, 198, 206, 222, 246, 230, 198, 198, 124, 0, 0, 0, 0, 0, 24, 56, 120, 24, 24, 24, 24, 24, 126, 0, 0, 0,
  0, 0, 124, 198, 6, 12, 24, 48, 96, 198, 254, 0, 0, 0, 0, 0, 124, 198, 6, 6, 60, 6, 6, 198, 124, 0, 0, 0,
  0, 0, 12, 28, 60, 108, 204, 254, 12, 12, 30, 0, 0, 0, 0, 0, 254, 192, 192, 192, 252, 6, 6, 198, 124, 0, 0, 0,
  0, 0, 56, 96, 192, 192, 252, 198, 198, 198, 124, 0, 0, 0, 0, 0, 254, 198, 6, 12, 24, 48, 48, 48, 48, 0, 0, 0,
  0, 0, 124, 198, 198, 198, 124, 198, 198, 198, 124, 0, 0, 0, 0, 0, 124, 198, 198, 198, 126, 6, 6, 12, 120, 0, 0, 0,
  0, 0, 0, 24, 24, 0, 0, 0, 24, 24, 0, 0, 0, 0, 0, 0, 0, 24, 24, 0, 0, 0, 24, 24, 48, 0, 0, 0,
  0, 0, 6, 12, 24, 48, 96, 48, 24, 12, 6, 0, 0, 0, 0, 0, 0, 0, 0, 126, 0, 0, 126, 0, 0, 0, 0, 0,
  0, 0, 96, 48, 24, 12, 6, 12, 24, 48, 96, 0, 0, 0, 0, 0, 124, 198, 198, 12, 24, 24, 0, 24, 24, 0, 0, 0,
  0, 0, 124, 198, 198, 222, 222, 222, 220, 192, 124, 0, 0, 0, 0, 0, 16, 56, 108, 198, 198, 254, 198, 198, 198, 0, 0, 0,
  0, 0, 252, 102, 102, 102, 124, 102, 102, 102, 252, 0, 0, 0, 0, 0, 60, 102, 194, 192, 192, 192, 194, 102, 60, 0, 0, 0,
  0, 0, 248, 108, 102, 102, 102, 102, 102, 108, 248, 0, 0, 0, 0, 0, 254, 102, 98, 104, 120, 104, 98, 102, 254, 0, 0, 0,
  0, 0, 254, 102, 98, 104, 120, 104, 96, 96, 240, 0, 0, 0, 0, 0, 60, 102, 194, 192, 192, 222, 198, 102, 58, 0, 0, 0,
  0, 0, 198, 198, 198, 198, 254, 198, 198, 198, 198, 0, 0, 0, 0, 0, 60, 24, 24, 24, 24, 24, 24, 24, 60, 0, 0, 0,
  0, 0, 30, 12, 12, 12, 12, 12, 204, 204, 120, 0, 0, 0, 0, 0, 230, 102, 108, 108, 120, 108, 108, 102, 230, 0, 0, 0,
  0, 0, 240, 96, 96, 96, 96, 96, 98, 102, 254, 0, 0, 0, 0, 0, 198, 238, 254, 254, 214, 198, 198, 198, 198, 0, 0, 0,
  0, 0, 198, 230, 246, 254, 222, 206, 198, 198, 198, 0, 0, 0, 0, 0, 56, 108, 198, 198, 198, 198, 198, 108, 56, 0, 0, 0,
  0, 0, 252, 102, 102, 102, 124, 96, 96, 96, 240, 0, 0, 0, 0, 0, 124, 198, 198, 198, 198, 214, 222, 124, 12, 14, 0, 0,
  0, 0, 252, 102, 102, 102, 124, 108, 102, 102, 230, 0, 0, 0, 0, 0, 124, 198, 198, 96, 56, 12, 198, 198, 124, 0, 0, 0,
  0, 0, 126, 126, 90, 24, 24, 24, 24, 24, 60, 0, 0, 0, 0, 0, 198, 198, 198, 198, 198, 198, 198, 198, 124, 0, 0, 0,
  0, 0, 198, 198, 198, 198, 198, 198, 108, 56, 16, 0, 0, 0, 0, 0, 198, 198, 198, 198, 214, 214, 254, 124, 108, 0, 0, 0,
  0, 0, 198, 198, 108, 56, 56, 56, 108, 198, 198, 0, 0, 0, 0, 0, 102, 102, 102, 102, 60, 24, 24, 24, 60, 0, 0, 0,
  0, 0, 254, 198, 140, 24, 48, 96, 194, 198, 254, 0, 0, 0, 0, 0, 60, 48, 48, 48, 48, 48, 48, 48, 60, 0, 0, 0,
  0, 0, 128, 192, 224, 112, 56, 28, 14, 6, 2, 0, 0, 0, 0, 0, 60, 12, 12, 12, 12, 12, 12, 12, 60, 0, 0, 0,
  16, 56, 108, 198, 0, 0, 0, 0, 0, 0, 0, 0, 0, 0, 0, 0, 0, 0, 0, 0, 0, 0, 0, 0, 0, 0, 255, 0,
  48, 48, 24, 0, 0, 0, 0, 0, 0, 0, 0, 0, 0, 0, 0, 0, 0, 0, 0, 120, 12, 124, 204, 204, 118, 0, 0, 0,
  0, 0, 224, 96, 96, 120, 108, 102, 102, 102, 124, 0, 0, 0, 0, 0, 0, 0, 0, 124, 198, 192, 192, 198, 124, 0, 0, 0,
  0, 0, 28, 12, 12, 60, 108, 204, 204, 204, 118, 0, 0, 0, 0, 0, 0, 0, 0, 124, 198, 254, 192, 198, 124, 0, 0, 0,
  0, 0, 56, 108, 100, 96, 240, 96, 96, 96, 240, 0, 0, 0, 0, 0, 0, 0, 0, 118, 204, 204, 204, 124, 12, 204, 120, 0,
  0, 0, 224, 96, 96, 108, 118, 102, 102, 102, 230, 0, 0, 0, 0, 0, 24, 24, 0, 56, 24, 24, 24, 24, 60, 0, 0, 0,
  0, 0, 6, 6, 0, 14, 6, 6, 6, 6, 102, 102, 60, 0, 0, 0, 224, 96, 96, 102, 108, 120, 108, 102, 230, 0, 0, 0,
  0, 0, 56, 24, 24, 24, 24, 24, 24, 24, 60, 0, 0, 0, 0, 0, 0, 0, 0, 236, 254, 214, 214, 214, 198, 0, 0, 0,
  0, 0, 0, 0, 0, 220, 102, 102, 102, 102, 102, 0, 0, 0, 0, 0, 0, 0, 0, 124, 198, 198, 198, 198, 124, 0, 0, 0,
  0, 0, 0, 0, 0, 220, 102, 102, 102, 124, 96, 96, 240, 0, 0, 0, 0, 0, 0, 118, 204, 204, 204, 124, 12, 12, 30, 0,
  0, 0, 0, 0, 0, 220, 118, 102, 96, 96, 240, 0, 0, 0, 0, 0, 0, 0, 0, 124, 198, 112, 28, 198, 124, 0, 0, 0,
  0, 0, 16, 48, 48, 252, 48, 48, 48, 54, 28, 0, 0, 0, 0, 0, 0, 0, 0, 204, 204, 204, 204, 204, 118, 0, 0, 0,
  0, 0, 0, 0, 0, 102, 102, 102, 102, 60, 24, 0, 0, 0, 0, 0, 0, 0, 0, 198, 198, 214, 214, 254, 108, 0, 0, 0,
  0, 0, 0, 0, 0, 198, 108, 56, 56, 108, 198, 0, 0, 0, 0, 0, 0, 0, 0, 198, 198, 198, 198, 126, 6, 12, 248, 0,
  0, 0, 0, 0, 0, 254, 204, 24, 48, 102, 254, 0, 0, 0, 0, 0, 14, 24, 24, 24, 112, 24, 24, 24, 14, 0, 0, 0,
  0, 0, 24, 24, 24, 24, 0, 24, 24, 24, 24, 0, 0, 0, 0, 0, 112, 24, 24, 24, 14, 24, 24, 24, 112, 0, 0, 0,
  0, 0, 118, 220, 0, 0, 0, 0, 0, 0, 0, 0, 0, 0, 0, 0, 0, 0, 16, 56, 108, 198, 198, 254, 0, 0, 0, 0,
  0, 0, 60, 102, 194, 192, 192, 194, 102, 60, 12, 6, 124, 0, 0, 0, 204, 204, 0, 204, 204, 204, 204, 204, 118, 0, 0, 0,
  0, 12, 24, 48, 0, 124, 198, 254, 192, 198, 124, 0, 0, 0, 0, 16, 56, 108, 0, 120, 12, 124, 204, 204, 118, 0, 0, 0,
  0, 0, 204, 204, 0, 120, 12, 124, 204, 204, 118, 0, 0, 0, 0, 96, 48, 24, 0, 120, 12, 124, 204, 204, 118, 0, 0, 0,
  0, 56, 108, 56, 0, 120, 12, 124, 204, 204, 118, 0, 0, 0, 0, 0, 0, 0, 60, 102, 96, 102, 60, 12, 6, 60, 0, 0,
  0, 16, 56, 108, 0, 124, 198, 254, 192, 198, 124, 0, 0, 0, 0, 0, 204, 204, 0, 124, 198, 254, 192, 198, 124, 0, 0, 0,
  0, 96, 48, 24, 0, 124, 198, 254, 192, 198, 124, 0, 0, 0, 0, 0, 102, 102, 0, 56, 24, 24, 24, 24, 60, 0, 0, 0,
  0, 24, 60, 102, 0, 56, 24, 24, 24, 24, 60, 0, 0, 0, 0, 96, 48, 24, 0, 56, 24, 24, 24, 24, 60, 0, 0, 0,
  0, 198, 198, 16, 56, 108, 198, 198, 254, 198, 198, 0, 0, 0, 56, 108, 56, 0, 56, 108, 198, 198, 254, 198, 198, 0, 0, 0,
  24, 48, 96, 0, 254, 102, 96, 124, 96, 102, 254, 0, 0, 0, 0, 0, 0, 0, 204, 118, 54, 126, 216, 216, 110, 0, 0, 0,
  0, 0, 62, 108, 204, 204, 254, 204, 204, 204, 206, 0, 0, 0, 0, 16, 56, 108, 0, 124, 198, 198, 198, 198, 124, 0, 0, 0,
  0, 0, 198, 198, 0, 124, 198, 198, 198, 198, 124, 0, 0, 0, 0, 96, 48, 24, 0, 124, 198, 198, 198, 198, 124, 0, 0, 0,
  0, 48, 120, 204, 0, 204, 204, 204, 204, 204, 118, 0, 0, 0, 0, 96, 48, 24, 0, 204, 204, 204, 204, 204, 118, 0, 0, 0,
  0, 0, 198, 198, 0, 198, 198, 198, 198, 126, 6, 12, 120, 0, 0, 198, 198, 56, 108, 198, 198, 198, 198, 108, 56, 0, 0, 0,
  0, 198, 198, 0, 198, 198, 198, 198, 198, 198, 124, 0, 0, 0, 0, 24, 24, 60, 102, 96, 96, 102, 60, 24, 24, 0, 0, 0,
  0, 56, 108, 100, 96, 240, 96, 96, 96, 230, 252, 0, 0, 0, 0, 0, 102, 102, 60, 24, 126, 24, 126, 24, 24, 0, 0, 0,
  0, 248, 204, 204, 248, 196, 204, 222, 204, 204, 198, 0, 0, 0, 0, 14, 27, 24, 24, 24, 126, 24, 24, 24, 24, 216, 112, 0,
  0, 24, 48, 96, 0, 120, 12, 124, 204, 204, 118, 0, 0, 0, 0, 12, 24, 48, 0, 56, 24, 24, 24, 24, 60, 0, 0, 0,
  0, 24, 48, 96, 0, 124, 198, 198, 198, 198, 124, 0, 0, 0, 0, 24, 48, 96, 0, 204, 204, 204, 204, 204, 118, 0, 0, 0,
  0, 0, 118, 220, 0, 220, 102, 102, 102, 102, 102, 0, 0, 0, 118, 220, 0, 198, 230, 246, 254, 222, 206, 198, 198, 0, 0, 0,
  0, 60, 108, 108, 62, 0, 126, 0, 0, 0, 0, 0, 0, 0, 0, 56, 108, 108, 56, 0, 124, 0, 0, 0, 0, 0, 0, 0,
  0, 0, 48, 48, 0, 48, 48, 96, 198, 198, 124, 0, 0, 0, 0, 0, 0, 0, 0, 0, 254, 192, 192, 192, 0, 0, 0, 0,
  0, 0, 0, 0, 0, 0, 254, 6, 6, 6, 0, 0, 0, 0, 0, 192, 192, 198, 204, 216, 48, 96, 220, 134, 12, 24, 62, 0,
  0, 192, 192, 198, 204, 216, 48, 102, 206, 158, 62, 6, 6, 0, 0, 0, 24, 24, 0, 24, 24, 60, 60, 60, 24, 0, 0, 0,
  0, 0, 0, 0, 54, 108, 216, 108, 54, 0, 0, 0, 0, 0, 0, 0, 0, 0, 216, 108, 54, 108, 216, 0, 0, 0, 0, 0,
  17, 68, 17, 68, 17, 68, 17, 68, 17, 68, 17, 68, 17, 68, 85, 170, 85, 170, 85, 170, 85, 170, 85, 170, 85, 170, 85, 170,
  221, 119, 221, 119, 221, 119, 221, 119, 221, 119, 221, 119, 221, 119, 24, 24, 24, 24, 24, 24, 24, 24, 24, 24, 24, 24, 24, 24,
  24, 24, 24, 24, 24, 24, 24, 248, 24, 24, 24, 24, 24, 24, 24, 24, 24, 24, 24, 248, 24, 248, 24, 24, 24, 24, 24, 24,
  54, 54, 54, 54, 54, 54, 54, 246, 54, 54, 54, 54, 54, 54, 0, 0, 0, 0, 0, 0, 0, 254, 54, 54, 54, 54, 54, 54,
  0, 0, 0, 0, 0, 248, 24, 248, 24, 24, 24, 24, 24, 24, 54, 54, 54, 54, 54, 246, 6, 246, 54, 54, 54, 54, 54, 54,
  54, 54, 54, 54, 54, 54, 54, 54, 54, 54, 54, 54, 54, 54, 0, 0, 0, 0, 0, 254, 6, 246, 54, 54, 54, 54, 54, 54,
  54, 54, 54, 54, 54, 246, 6, 254, 0, 0, 0, 0, 0, 0, 54, 54, 54, 54, 54, 54, 54, 254, 0, 0, 0, 0, 0, 0,
  24, 24, 24, 24, 24, 248, 24, 248, 0, 0, 0, 0, 0, 0, 0, 0, 0, 0, 0, 0, 0, 248, 24, 24, 24, 24, 24, 24,
  24, 24, 24, 24, 24, 24, 24, 31, 0, 0, 0, 0, 0, 0, 24, 24, 24, 24, 24, 24, 24, 255, 0, 0, 0, 0, 0, 0,
  0, 0, 0, 0, 0, 0, 0, 255, 24, 24, 24, 24, 24, 24, 24, 24, 24, 24, 24, 24, 24, 31, 24, 24, 24, 24, 24, 24,
  0, 0, 0, 0, 0, 0, 0, 255, 0, 0, 0, 0, 0, 0, 24, 24, 24, 24, 24, 24, 24, 255, 24, 24, 24, 24, 24, 24,
  24, 24, 24, 24, 24, 31, 24, 31, 24, 24, 24, 24, 24, 24, 54, 54, 54, 54, 54, 54, 54, 55, 54, 54, 54, 54, 54, 54,
  54, 54, 54, 54, 54, 55, 48, 63, 0, 0, 0, 0, 0, 0, 0, 0, 0, 0, 0, 63, 48, 55, 54, 54, 54, 54, 54, 54,
  54, 54, 54, 54, 54, 247, 0, 255, 0, 0, 0, 0, 0, 0, 0, 0, 0, 0, 0, 255, 0, 247, 54, 54, 54, 54, 54, 54,
  54, 54, 54, 54, 54, 55, 48, 55, 54, 54, 54, 54, 54, 54, 0, 0, 0, 0, 0, 255, 0, 255, 0, 0, 0, 0, 0, 0,
  54, 54, 54, 54, 54, 247, 0, 247, 54, 54, 54, 54, 54, 54, 24, 24, 24, 24, 24, 255, 0, 255, 0, 0, 0, 0, 0, 0,
  54, 54, 54, 54, 54, 54, 54, 255, 0, 0, 0, 0, 0, 0, 0, 0, 0, 0, 0, 255, 0, 255, 24, 24, 24, 24, 24, 24,
  0, 0, 0, 0, 0, 0, 0, 255, 54, 54, 54, 54, 54, 54, 54, 54, 54, 54, 54, 54, 54, 63, 0, 0, 0, 0, 0, 0,
  24, 24, 24, 24, 24, 31, 24, 31, 0, 0, 0, 0, 0, 0, 0, 0, 0, 0, 0, 31, 24, 31, 24, 24, 24, 24, 24, 24,
  0, 0, 0, 0, 0, 0, 0, 63, 54, 54, 54, 54, 54, 54, 54, 54, 54, 54, 54, 54, 54, 255, 54, 54, 54, 54, 54, 54,
  24, 24, 24, 24, 24, 255, 24, 255, 24, 24, 24, 24, 24, 24, 24, 24, 24, 24, 24, 24, 24, 248, 0, 0, 0, 0, 0, 0,
  0, 0, 0, 0, 0, 0, 0, 31, 24, 24, 24, 24, 24, 24, 255, 255, 255, 255, 255, 255, 255, 255, 255, 255, 255, 255, 255, 255,
  0, 0, 0, 0, 0, 0, 0, 255, 255, 255, 255, 255, 255, 255, 240, 240, 240, 240, 240, 240, 240, 240, 240, 240, 240, 240, 240, 240,
  15, 15, 15, 15, 15, 15, 15, 15, 15, 15, 15, 15, 15, 15, 255, 255, 255, 255, 255, 255, 255, 0, 0, 0, 0, 0, 0, 0,
  0, 0, 0, 0, 0, 118, 220, 216, 216, 220, 118, 0, 0, 0, 0, 0, 0, 0, 124, 198, 252, 198, 198, 252, 192, 192, 64, 0,
  0, 0, 254, 198, 198, 192, 192, 192, 192, 192, 192, 0, 0, 0, 0, 0, 0, 0, 254, 108, 108, 108, 108, 108, 108, 0, 0, 0,
  0, 0, 254, 198, 96, 48, 24, 48, 96, 198, 254, 0, 0, 0, 0, 0, 0, 0, 0, 126, 216, 216, 216, 216, 112, 0, 0, 0,
  0, 0, 0, 0, 102, 102, 102, 102, 124, 96, 96, 192, 0, 0, 0, 0, 0, 0, 118, 220, 24, 24, 24, 24, 24, 0, 0, 0,
  0, 0, 126, 24, 60, 102, 102, 102, 60, 24, 126, 0, 0, 0, 0, 0, 56, 108, 198, 198, 254, 198, 198, 108, 56, 0, 0, 0,
  0, 0, 56, 108, 198, 198, 198, 108, 108, 108, 238, 0, 0, 0, 0, 0, 30, 48, 24, 12, 62, 102, 102, 102, 60, 0, 0, 0,
  0, 0, 0, 0, 0, 126, 219, 219, 126, 0, 0, 0, 0, 0, 0, 0, 3, 6, 126, 219, 219, 243, 126, 96, 192, 0, 0, 0,
  0, 0, 28, 48, 96, 96, 124, 96, 96, 48, 28, 0, 0, 0, 0, 0, 0, 124, 198, 198, 198, 198, 198, 198, 198, 0, 0, 0,
  0, 0, 0, 254, 0, 0, 254, 0, 0, 254, 0, 0, 0, 0, 0, 0, 0, 24, 24, 126, 24, 24, 0, 0, 255, 0, 0, 0,
  0, 0, 48, 24, 12, 6, 12, 24, 48, 0, 126, 0, 0, 0, 0, 0, 12, 24, 48, 96, 48, 24, 12, 0, 126, 0, 0, 0,
  0, 0, 14, 27, 27, 24, 24, 24, 24, 24, 24, 24, 24, 24, 24, 24, 24, 24, 24, 24, 24, 24, 216, 216, 112, 0, 0, 0,
  0, 0, 0, 24, 24, 0, 126, 0, 24, 24, 0, 0, 0, 0, 0, 0, 0, 0, 118, 220, 0, 118, 220, 0, 0, 0, 0, 0,
  0, 56, 108, 108, 56, 0, 0, 0, 0, 0, 0, 0, 0, 0, 0, 0, 0, 0, 0, 0, 24, 24, 0, 0, 0, 0, 0, 0,
  0, 0, 0, 0, 0, 0, 0, 24, 0, 0, 0, 0, 0, 0, 0, 15, 12, 12, 12, 12, 12, 236, 108, 60, 28, 0, 0, 0,
  0, 216, 108, 108, 108, 108, 108, 0, 0, 0, 0, 0, 0, 0, 0, 112, 216, 48, 96, 200, 248, 0, 0, 0, 0, 0, 0, 0,
  0, 0, 0, 0, 124, 124, 124, 124, 124, 124, 0, 0, 0, 0, 0, 0, 0, 0, 0, 0, 0, 0, 0, 0, 0, 0, 0, 0]

/-- fonts.py 794-1050 `font8x14thin`: the height of the glyphs and the rows of 256 glyphs, eight pixels in each byte -/
def font8x14thin : Bytes := [14,
  0, 0, 0, 0, 0, 0, 0, 0, 0, 0, 0, 0, 0, 0, 0, 0, 126, 129, 165, 129, 129, 189, 153, 129, 126, 0, 0, 0,
  0, 0, 126, 255, 219, 255, 255, 195, 231, 255, 126, 0, 0, 0, 0, 0, 0, 108, 254, 254, 254, 254, 124, 56, 16, 0, 0, 0,
  0, 0, 0, 16, 56, 124, 254, 124, 56, 16, 0, 0, 0, 0, 0, 0, 24, 60, 60, 231, 231, 231, 24, 24, 60, 0, 0, 0,
  0, 0, 24, 60, 126, 255, 255, 126, 24, 24, 60, 0, 0, 0, 0, 0, 0, 0, 0, 24, 60, 60, 24, 0, 0, 0, 0, 0,
  255, 255, 255, 255, 255, 231, 195, 195, 231, 255, 255, 255, 255, 255, 0, 0, 0, 0, 60, 102, 66, 66, 102, 60, 0, 0, 0, 0,
  255, 255, 255, 255, 195, 153, 189, 189, 153, 195, 255, 255, 255, 255, 0, 0, 30, 10, 18, 34, 120, 132, 132, 132, 120, 0, 0, 0,
  0, 0, 60, 66, 66, 66, 60, 16, 124, 16, 16, 0, 0, 0, 0, 0, 63, 33, 63, 32, 32, 32, 96, 224, 224, 0, 0, 0,
  0, 0, 127, 65, 127, 65, 65, 65, 67, 195, 194, 128, 0, 0, 0, 0, 24, 24, 219, 60, 231, 60, 219, 24, 24, 0, 0, 0,
  0, 0, 128, 192, 224, 248, 254, 248, 224, 192, 128, 0, 0, 0, 0, 0, 2, 6, 14, 62, 254, 62, 14, 6, 2, 0, 0, 0,
  0, 0, 16, 56, 124, 16, 16, 16, 124, 56, 16, 0, 0, 0, 0, 0, 68, 68, 68, 68, 68, 68, 0, 68, 68, 0, 0, 0,
  0, 0, 127, 137, 137, 137, 121, 9, 9, 9, 9, 0, 0, 0, 0, 124, 130, 64, 48, 68, 130, 130, 68, 56, 4, 130, 124, 0,
  0, 0, 0, 0, 0, 0, 0, 0, 254, 254, 254, 0, 0, 0, 0, 0, 16, 56, 124, 16, 16, 16, 124, 56, 16, 124, 0, 0,
  0, 0, 16, 56, 124, 16, 16, 16, 16, 16, 16, 0, 0, 0, 0, 0, 16, 16, 16, 16, 16, 16, 124, 56, 16, 0, 0, 0,
  0, 0, 0, 0, 8, 4, 254, 4, 8, 0, 0, 0, 0, 0, 0, 0, 0, 0, 32, 64, 254, 64, 32, 0, 0, 0, 0, 0,
  0, 0, 0, 0, 0, 128, 128, 128, 254, 0, 0, 0, 0, 0, 0, 0, 0, 0, 40, 68, 254, 68, 40, 0, 0, 0, 0, 0,
  0, 0, 0, 16, 56, 56, 124, 124, 254, 254, 0, 0, 0, 0, 0, 0, 0, 254, 254, 124, 124, 56, 56, 16, 0, 0, 0, 0,
  0, 0, 0, 0, 0, 0, 0, 0, 0, 0, 0, 0, 0, 0, 0, 0, 16, 56, 56, 56, 16, 16, 0, 16, 16, 0, 0, 0,
  0, 66, 66, 66, 66, 0, 0, 0, 0, 0, 0, 0, 0, 0, 0, 0, 40, 40, 254, 40, 40, 40, 254, 40, 40, 0, 0, 0,
  16, 16, 124, 130, 130, 128, 124, 2, 130, 130, 124, 16, 16, 0, 0, 0, 0, 0, 130, 132, 8, 16, 32, 66, 130, 0, 0, 0,
  0, 0, 56, 68, 68, 56, 86, 132, 132, 132, 118, 0, 0, 0, 0, 16, 16, 16, 32, 0, 0, 0, 0, 0, 0, 0, 0, 0,
  0, 0, 8, 16, 32, 32, 32, 32, 32, 16, 8, 0, 0, 0, 0, 0, 16, 8, 4, 4, 4, 4, 4, 8, 16, 0, 0, 0,
  0, 0, 0, 0, 36, 24, 255, 24, 36, 0, 0, 0, 0, 0, 0, 0, 0, 0, 16, 16, 254, 16, 16, 0, 0, 0, 0, 0,
  0, 0, 0, 0, 0, 0, 0, 0, 8, 8, 8, 16, 0, 0, 0, 0, 0, 0, 0, 0, 254, 0, 0, 0, 0, 0, 0, 0,
  0, 0, 0, 0, 0, 0, 0, 0, 0, 8, 8, 0, 0, 0, 0, 0, 0, 2, 4, 8, 16, 32, 64, 128, 0, 0, 0, 0,
  0, 0, 124, 130, 134, 138, 146, 162, 194, 130, 124, 0, 0, 0, 0, 0, 24, 40, 72, 8, 8, 8, 8, 8, 62, 0, 0, 0,
  0, 0, 124, 130, 2, 4, 8, 16, 32, 66, 254, 0, 0, 0, 0, 0, 124, 130, 2, 2, 60, 2, 2, 130, 124, 0, 0, 0,
  0, 0, 12, 20, 36, 68, 132, 254, 4, 4, 14, 0, 0, 0, 0, 0, 254, 128, 128, 128, 252, 2, 2, 130, 124, 0, 0, 0,
  0, 0, 56, 64, 128, 128, 252, 130, 130, 130, 124, 0, 0, 0, 0, 0, 254, 130, 2, 4, 8, 16, 16, 16, 16, 0, 0, 0,
  0, 0, 124, 130, 130, 130, 124, 130, 130, 130, 124, 0, 0, 0, 0, 0, 124, 130, 130, 130, 126, 2, 2, 4, 120, 0, 0, 0,
  0, 0, 0, 8, 8, 0, 0, 0, 8, 8, 0, 0, 0, 0, 0, 0, 0, 8, 8, 0, 0, 0, 8, 8, 48, 0, 0, 0,
  0, 0, 4, 8, 16, 32, 64, 32, 16, 8, 4, 0, 0, 0, 0, 0, 0, 0, 0, 126, 0, 0, 126, 0, 0, 0, 0, 0,
  0, 0, 32, 16, 8, 4, 2, 4, 8, 16, 32, 0, 0, 0, 0, 0, 124, 130, 130, 4, 8, 8, 0, 8, 8, 0, 0, 0,
  0, 0, 124, 130, 130, 158, 146, 146, 156, 128, 124, 0, 0, 0, 0, 0, 16, 40, 68, 130, 130, 254, 130, 130, 130, 0, 0, 0,
  0, 0, 252, 66, 66, 66, 124, 66, 66, 66, 252, 0, 0, 0, 0, 0, 60, 66, 130, 128, 128, 128, 130, 66, 60, 0, 0, 0,
  0, 0, 248, 68, 66, 66, 66, 66, 66, 68, 248, 0, 0, 0, 0, 0, 254, 66, 66, 72, 120, 72, 66, 66, 254, 0, 0, 0,
  0, 0, 254, 66, 66, 72, 120, 72, 64, 64, 224, 0, 0, 0, 0, 0, 60, 66, 130, 128, 128, 158, 130, 70, 58, 0, 0, 0,
  0, 0, 130, 130, 130, 130, 254, 130, 130, 130, 130, 0, 0, 0, 0, 0, 56, 16, 16, 16, 16, 16, 16, 16, 56, 0, 0, 0,
  0, 0, 28, 8, 8, 8, 8, 8, 136, 136, 112, 0, 0, 0, 0, 0, 194, 66, 66, 68, 120, 68, 66, 66, 194, 0, 0, 0,
  0, 0, 224, 64, 64, 64, 64, 64, 66, 66, 254, 0, 0, 0, 0, 0, 130, 198, 170, 146, 130, 130, 130, 130, 130, 0, 0, 0,
  0, 0, 130, 194, 162, 146, 138, 134, 130, 130, 130, 0, 0, 0, 0, 0, 56, 68, 130, 130, 130, 130, 130, 68, 56, 0, 0, 0,
  0, 0, 252, 66, 66, 66, 124, 64, 64, 64, 224, 0, 0, 0, 0, 0, 56, 68, 130, 130, 130, 130, 130, 84, 56, 4, 0, 0,
  0, 0, 252, 66, 66, 66, 124, 68, 66, 66, 194, 0, 0, 0, 0, 0, 124, 130, 130, 128, 124, 2, 130, 130, 124, 0, 0, 0,
  0, 0, 254, 146, 146, 16, 16, 16, 16, 16, 56, 0, 0, 0, 0, 0, 130, 130, 130, 130, 130, 130, 130, 130, 124, 0, 0, 0,
  0, 0, 130, 130, 130, 130, 130, 130, 68, 40, 16, 0, 0, 0, 0, 0, 130, 130, 130, 130, 130, 146, 170, 198, 130, 0, 0, 0,
  0, 0, 130, 130, 68, 40, 16, 40, 68, 130, 130, 0, 0, 0, 0, 0, 68, 68, 68, 68, 56, 16, 16, 16, 56, 0, 0, 0,
  0, 0, 254, 130, 132, 8, 16, 32, 66, 130, 254, 0, 0, 0, 0, 0, 60, 32, 32, 32, 32, 32, 32, 32, 60, 0, 0, 0,
  0, 0, 0, 128, 64, 32, 16, 8, 4, 2, 0, 0, 0, 0, 0, 0, 60, 4, 4, 4, 4, 4, 4, 4, 60, 0, 0, 0,
  16, 40, 68, 130, 0, 0, 0, 0, 0, 0, 0, 0, 0, 0, 0, 0, 0, 0, 0, 0, 0, 0, 0, 0, 0, 0, 255, 0,
  32, 32, 16, 0, 0, 0, 0, 0, 0, 0, 0, 0, 0, 0, 0, 0, 0, 0, 0, 120, 4, 124, 132, 140, 118, 0, 0, 0,
  0, 0, 192, 64, 64, 120, 68, 66, 66, 66, 124, 0, 0, 0, 0, 0, 0, 0, 0, 124, 130, 128, 128, 130, 124, 0, 0, 0,
  0, 0, 28, 4, 4, 60, 68, 132, 132, 140, 118, 0, 0, 0, 0, 0, 0, 0, 0, 124, 130, 254, 128, 130, 124, 0, 0, 0,
  0, 0, 56, 68, 68, 64, 224, 64, 64, 64, 224, 0, 0, 0, 0, 0, 0, 0, 0, 118, 132, 132, 132, 124, 4, 132, 120, 0,
  0, 0, 192, 64, 64, 92, 98, 66, 66, 66, 194, 0, 0, 0, 0, 0, 8, 8, 0, 24, 8, 8, 8, 8, 28, 0, 0, 0,
  0, 0, 2, 2, 0, 6, 2, 2, 2, 2, 66, 66, 60, 0, 0, 0, 192, 64, 64, 66, 68, 120, 68, 66, 194, 0, 0, 0,
  0, 0, 48, 16, 16, 16, 16, 16, 16, 16, 56, 0, 0, 0, 0, 0, 0, 0, 0, 236, 146, 146, 146, 146, 146, 0, 0, 0,
  0, 0, 0, 0, 0, 220, 66, 66, 66, 66, 66, 0, 0, 0, 0, 0, 0, 0, 0, 124, 130, 130, 130, 130, 124, 0, 0, 0,
  0, 0, 0, 0, 0, 220, 66, 66, 66, 124, 64, 64, 224, 0, 0, 0, 0, 0, 0, 118, 132, 132, 132, 124, 4, 4, 14, 0,
  0, 0, 0, 0, 0, 220, 66, 66, 64, 64, 224, 0, 0, 0, 0, 0, 0, 0, 0, 124, 130, 32, 8, 130, 124, 0, 0, 0,
  0, 0, 16, 16, 16, 124, 16, 16, 16, 18, 12, 0, 0, 0, 0, 0, 0, 0, 0, 132, 132, 132, 132, 140, 118, 0, 0, 0,
  0, 0, 0, 0, 0, 66, 66, 66, 66, 36, 24, 0, 0, 0, 0, 0, 0, 0, 0, 130, 130, 146, 170, 198, 130, 0, 0, 0,
  0, 0, 0, 0, 0, 130, 68, 40, 16, 68, 130, 0, 0, 0, 0, 0, 0, 0, 0, 130, 130, 130, 130, 126, 2, 4, 248, 0,
  0, 0, 0, 0, 0, 254, 132, 16, 32, 130, 254, 0, 0, 0, 0, 0, 14, 16, 16, 16, 112, 16, 16, 16, 14, 0, 0, 0,
  0, 0, 16, 16, 16, 16, 0, 16, 16, 16, 16, 0, 0, 0, 0, 0, 112, 8, 8, 8, 14, 8, 8, 8, 112, 0, 0, 0,
  0, 0, 118, 220, 0, 0, 0, 0, 0, 0, 0, 0, 0, 0, 0, 0, 0, 0, 16, 40, 68, 130, 130, 254, 0, 0, 0, 0,
  0, 0, 60, 66, 130, 128, 128, 130, 66, 60, 4, 2, 124, 0, 0, 0, 132, 132, 0, 132, 132, 132, 132, 132, 118, 0, 0, 0,
  0, 4, 8, 16, 0, 124, 130, 254, 128, 130, 124, 0, 0, 0, 0, 16, 40, 68, 0, 120, 4, 124, 132, 132, 118, 0, 0, 0,
  0, 0, 132, 132, 0, 120, 4, 124, 132, 132, 118, 0, 0, 0, 0, 32, 16, 8, 0, 120, 4, 124, 132, 132, 118, 0, 0, 0,
  0, 56, 68, 56, 0, 120, 4, 124, 132, 132, 118, 0, 0, 0, 0, 0, 0, 0, 60, 66, 64, 66, 60, 4, 2, 60, 0, 0,
  0, 16, 40, 68, 0, 124, 130, 254, 128, 130, 124, 0, 0, 0, 0, 0, 132, 132, 0, 124, 130, 254, 128, 130, 124, 0, 0, 0,
  0, 32, 16, 8, 0, 124, 130, 254, 128, 130, 124, 0, 0, 0, 0, 0, 66, 66, 0, 24, 8, 8, 8, 8, 28, 0, 0, 0,
  0, 16, 40, 68, 0, 48, 16, 16, 16, 16, 56, 0, 0, 0, 0, 32, 16, 8, 0, 24, 8, 8, 8, 8, 28, 0, 0, 0,
  0, 68, 0, 16, 40, 68, 130, 130, 254, 130, 130, 0, 0, 0, 56, 68, 56, 16, 40, 68, 130, 130, 254, 130, 130, 0, 0, 0,
  16, 32, 64, 254, 66, 64, 124, 64, 64, 66, 254, 0, 0, 0, 0, 0, 0, 0, 204, 50, 18, 126, 152, 152, 110, 0, 0, 0,
  0, 0, 62, 68, 132, 132, 254, 132, 132, 132, 134, 0, 0, 0, 0, 16, 40, 68, 0, 124, 130, 130, 130, 130, 124, 0, 0, 0,
  0, 0, 68, 68, 0, 124, 130, 130, 130, 130, 124, 0, 0, 0, 0, 32, 16, 8, 0, 124, 130, 130, 130, 130, 124, 0, 0, 0,
  0, 48, 72, 132, 0, 132, 132, 132, 132, 140, 118, 0, 0, 0, 0, 32, 16, 8, 0, 132, 132, 132, 132, 140, 118, 0, 0, 0,
  0, 0, 130, 130, 0, 130, 130, 130, 130, 126, 2, 4, 120, 0, 0, 68, 0, 56, 68, 130, 130, 130, 130, 68, 56, 0, 0, 0,
  0, 130, 0, 130, 130, 130, 130, 130, 130, 130, 124, 0, 0, 0, 0, 16, 16, 60, 66, 64, 64, 66, 60, 16, 16, 0, 0, 0,
  0, 56, 68, 68, 64, 224, 64, 64, 64, 194, 252, 0, 0, 0, 0, 0, 68, 68, 56, 16, 124, 16, 124, 16, 16, 0, 0, 0,
  0, 248, 132, 132, 248, 128, 132, 142, 132, 132, 130, 0, 0, 0, 0, 12, 18, 16, 16, 16, 124, 16, 16, 16, 16, 144, 96, 0,
  0, 16, 32, 64, 0, 120, 4, 124, 132, 132, 118, 0, 0, 0, 0, 8, 16, 32, 0, 48, 16, 16, 16, 16, 56, 0, 0, 0,
  0, 8, 16, 32, 0, 124, 130, 130, 130, 130, 124, 0, 0, 0, 0, 16, 32, 64, 0, 132, 132, 132, 132, 132, 118, 0, 0, 0,
  0, 0, 118, 220, 0, 220, 66, 66, 66, 66, 66, 0, 0, 0, 118, 220, 0, 130, 194, 162, 146, 138, 134, 130, 130, 0, 0, 0,
  0, 60, 68, 68, 62, 0, 126, 0, 0, 0, 0, 0, 0, 0, 0, 56, 68, 68, 56, 0, 124, 0, 0, 0, 0, 0, 0, 0,
  0, 0, 32, 32, 0, 32, 32, 64, 130, 130, 124, 0, 0, 0, 0, 0, 0, 0, 0, 0, 254, 192, 192, 192, 0, 0, 0, 0,
  0, 0, 0, 0, 0, 0, 254, 6, 6, 6, 0, 0, 0, 0, 0, 64, 64, 66, 68, 72, 16, 32, 92, 132, 8, 16, 62, 0,
  0, 64, 64, 66, 68, 72, 16, 38, 74, 146, 62, 2, 2, 0, 0, 0, 16, 16, 0, 16, 16, 16, 56, 56, 16, 0, 0, 0,
  0, 0, 0, 0, 34, 68, 136, 68, 34, 0, 0, 0, 0, 0, 0, 0, 0, 0, 136, 68, 34, 68, 136, 0, 0, 0, 0, 0,
  17, 68, 17, 68, 17, 68, 17, 68, 17, 68, 17, 68, 17, 68, 85, 170, 85, 170, 85, 170, 85, 170, 85, 170, 85, 170, 85, 170,
  221, 119, 221, 119, 221, 119, 221, 119, 221, 119, 221, 119, 221, 119, 24, 24, 24, 24, 24, 24, 24, 24, 24, 24, 24, 24, 24, 24,
  24, 24, 24, 24, 24, 24, 24, 248, 24, 24, 24, 24, 24, 24, 24, 24, 24, 24, 24, 248, 24, 248, 24, 24, 24, 24, 24, 24,
  54, 54, 54, 54, 54, 54, 54, 246, 54, 54, 54, 54, 54, 54, 0, 0, 0, 0, 0, 0, 0, 254, 54, 54, 54, 54, 54, 54,
  0, 0, 0, 0, 0, 248, 24, 248, 24, 24, 24, 24, 24, 24, 54, 54, 54, 54, 54, 246, 6, 246, 54, 54, 54, 54, 54, 54,
  54, 54, 54, 54, 54, 54, 54, 54, 54, 54, 54, 54, 54, 54, 0, 0, 0, 0, 0, 254, 6, 246, 54, 54, 54, 54, 54, 54,
  54, 54, 54, 54, 54, 246, 6, 254, 0, 0, 0, 0, 0, 0, 54, 54, 54, 54, 54, 54, 54, 254, 0, 0, 0, 0, 0, 0,
  24, 24, 24, 24, 24, 248, 24, 248, 0, 0, 0, 0, 0, 0, 0, 0, 0, 0, 0, 0, 0, 248, 24, 24, 24, 24, 24, 24,
  24, 24, 24, 24, 24, 24, 24, 31, 0, 0, 0, 0, 0, 0, 24, 24, 24, 24, 24, 24, 24, 255, 0, 0, 0, 0, 0, 0,
  0, 0, 0, 0, 0, 0, 0, 255, 24, 24, 24, 24, 24, 24, 24, 24, 24, 24, 24, 24, 24, 31, 24, 24, 24, 24, 24, 24,
  0, 0, 0, 0, 0, 0, 0, 255, 0, 0, 0, 0, 0, 0, 24, 24, 24, 24, 24, 24, 24, 255, 24, 24, 24, 24, 24, 24,
  24, 24, 24, 24, 24, 31, 24, 31, 24, 24, 24, 24, 24, 24, 54, 54, 54, 54, 54, 54, 54, 55, 54, 54, 54, 54, 54, 54,
  54, 54, 54, 54, 54, 55, 48, 63, 0, 0, 0, 0, 0, 0, 0, 0, 0, 0, 0, 63, 48, 55, 54, 54, 54, 54, 54, 54,
  54, 54, 54, 54, 54, 247, 0, 255, 0, 0, 0, 0, 0, 0, 0, 0, 0, 0, 0, 255, 0, 247, 54, 54, 54, 54, 54, 54,
  54, 54, 54, 54, 54, 55, 48, 55, 54, 54, 54, 54, 54, 54, 0, 0, 0, 0, 0, 255, 0, 255, 0, 0, 0, 0, 0, 0,
  54, 54, 54, 54, 54, 247, 0, 247, 54, 54, 54, 54, 54, 54, 24, 24, 24, 24, 24, 255, 0, 255, 0, 0, 0, 0, 0, 0,
  54, 54, 54, 54, 54, 54, 54, 255, 0, 0, 0, 0, 0, 0, 0, 0, 0, 0, 0, 255, 0, 255, 24, 24, 24, 24, 24, 24,
  0, 0, 0, 0, 0, 0, 0, 255, 54, 54, 54, 54, 54, 54, 54, 54, 54, 54, 54, 54, 54, 63, 0, 0, 0, 0, 0, 0,
  24, 24, 24, 24, 24, 31, 24, 31, 0, 0, 0, 0, 0, 0, 0, 0, 0, 0, 0, 31, 24, 31, 24, 24, 24, 24, 24, 24,
  0, 0, 0, 0, 0, 0, 0, 63, 54, 54, 54, 54, 54, 54, 54, 54, 54, 54, 54, 54, 54, 255, 54, 54, 54, 54, 54, 54,
  24, 24, 24, 24, 24, 255, 24, 255, 24, 24, 24, 24, 24, 24, 24, 24, 24, 24, 24, 24, 24, 248, 0, 0, 0, 0, 0, 0,
  0, 0, 0, 0, 0, 0, 0, 31, 24, 24, 24, 24, 24, 24, 255, 255, 255, 255, 255, 255, 255, 255, 255, 255, 255, 255, 255, 255,
  0, 0, 0, 0, 0, 0, 0, 255, 255, 255, 255, 255, 255, 255, 240, 240, 240, 240, 240, 240, 240, 240, 240, 240, 240, 240, 240, 240,
  15, 15, 15, 15, 15, 15, 15, 15, 15, 15, 15, 15, 15, 15, 255, 255, 255, 255, 255, 255, 255, 0, 0, 0, 0, 0, 0, 0,
  0, 0, 0, 0, 0, 118, 136, 136, 136, 140, 118, 0, 0, 0, 0, 0, 120, 132, 132, 184, 132, 130, 130, 188, 128, 0, 0, 0,
  0, 0, 254, 130, 130, 128, 128, 128, 128, 128, 128, 0, 0, 0, 0, 0, 0, 0, 254, 68, 68, 68, 68, 68, 68, 0, 0, 0,
  0, 0, 254, 130, 64, 32, 16, 32, 64, 130, 254, 0, 0, 0, 0, 0, 0, 0, 0, 126, 136, 136, 136, 136, 112, 0, 0, 0,
  0, 0, 0, 0, 66, 66, 66, 66, 124, 64, 64, 192, 0, 0, 0, 0, 0, 0, 102, 152, 16, 16, 16, 16, 16, 0, 0, 0,
  0, 0, 124, 16, 56, 68, 68, 68, 56, 16, 124, 0, 0, 0, 0, 0, 56, 68, 130, 130, 254, 130, 130, 68, 56, 0, 0, 0,
  0, 0, 56, 68, 130, 130, 130, 68, 40, 40, 108, 0, 0, 0, 0, 0, 30, 32, 8, 4, 62, 66, 66, 66, 60, 0, 0, 0,
  0, 0, 0, 0, 0, 124, 146, 146, 124, 0, 0, 0, 0, 0, 0, 0, 1, 2, 124, 138, 146, 162, 124, 64, 128, 0, 0, 0,
  0, 0, 28, 32, 64, 64, 124, 64, 64, 32, 28, 0, 0, 0, 0, 0, 0, 124, 130, 130, 130, 130, 130, 130, 130, 0, 0, 0,
  0, 0, 0, 254, 0, 0, 254, 0, 0, 254, 0, 0, 0, 0, 0, 0, 0, 16, 16, 124, 16, 16, 0, 0, 126, 0, 0, 0,
  0, 0, 16, 8, 4, 2, 4, 8, 16, 0, 126, 0, 0, 0, 0, 0, 8, 16, 32, 64, 32, 16, 8, 0, 126, 0, 0, 0,
  0, 0, 12, 18, 18, 16, 16, 16, 16, 16, 16, 16, 16, 16, 16, 16, 16, 16, 16, 16, 16, 16, 144, 144, 96, 0, 0, 0,
  0, 0, 0, 8, 8, 0, 62, 0, 8, 8, 0, 0, 0, 0, 0, 0, 0, 0, 118, 220, 0, 118, 220, 0, 0, 0, 0, 0,
  0, 56, 68, 68, 56, 0, 0, 0, 0, 0, 0, 0, 0, 0, 0, 0, 0, 0, 0, 0, 24, 24, 0, 0, 0, 0, 0, 0,
  0, 0, 0, 0, 0, 0, 0, 24, 0, 0, 0, 0, 0, 0, 0, 14, 8, 8, 8, 8, 8, 200, 72, 40, 24, 0, 0, 0,
  0, 216, 68, 68, 68, 68, 68, 0, 0, 0, 0, 0, 0, 0, 0, 112, 136, 16, 32, 64, 248, 0, 0, 0, 0, 0, 0, 0,
  0, 0, 0, 0, 124, 124, 124, 124, 124, 124, 0, 0, 0, 0, 0, 0, 0, 0, 0, 0, 0, 0, 0, 0, 0, 0, 0, 0]

/-- fonts.py 1052-1308 `font8x8sanserif`: the height of the glyphs and the rows of 256 glyphs, eight pixels in each byte -/
def font8x8sanserif : Bytes := [8,
  0, 0, 0, 0, 0, 0, 0, 0, 60, 66, 165, 129, 165, 153, 66, 60,
  60, 126, 219, 255, 219, 231, 126, 60, 108, 254, 254, 254, 124, 56, 16, 0,
  16, 56, 124, 254, 124, 56, 16, 0, 56, 56, 214, 254, 214, 16, 56, 0,
  16, 56, 124, 254, 124, 16, 56, 0, 0, 0, 48, 120, 120, 48, 0, 0,
  255, 255, 231, 195, 195, 231, 255, 255, 0, 120, 204, 132, 132, 204, 120, 0,
  255, 195, 153, 189, 189, 153, 195, 255, 15, 3, 5, 121, 216, 216, 112, 0,
  120, 204, 204, 120, 48, 252, 48, 0, 16, 24, 28, 20, 16, 48, 112, 96,
  63, 33, 63, 33, 35, 103, 230, 192, 16, 214, 56, 238, 56, 214, 16, 0,
  128, 224, 248, 254, 248, 224, 128, 0, 2, 14, 62, 254, 62, 14, 2, 0,
  16, 56, 124, 16, 124, 56, 16, 0, 204, 204, 204, 204, 204, 0, 204, 0,
  127, 219, 219, 123, 27, 27, 27, 0, 124, 198, 112, 76, 100, 28, 198, 124,
  0, 0, 0, 0, 252, 252, 252, 0, 48, 120, 252, 48, 252, 120, 48, 252,
  48, 120, 252, 48, 48, 48, 48, 0, 48, 48, 48, 48, 252, 120, 48, 0,
  0, 8, 12, 254, 12, 8, 0, 0, 0, 32, 96, 254, 96, 32, 0, 0,
  0, 0, 192, 192, 192, 254, 0, 0, 0, 36, 102, 255, 102, 36, 0, 0,
  0, 0, 16, 56, 124, 254, 0, 0, 0, 0, 254, 124, 56, 16, 0, 0,
  0, 0, 0, 0, 0, 0, 0, 0, 48, 120, 120, 48, 48, 0, 48, 0,
  108, 108, 108, 0, 0, 0, 0, 0, 108, 108, 254, 108, 254, 108, 108, 0,
  16, 124, 208, 124, 22, 124, 16, 0, 194, 198, 12, 24, 48, 102, 198, 0,
  56, 108, 56, 114, 220, 204, 118, 0, 24, 24, 48, 0, 0, 0, 0, 0,
  24, 48, 96, 96, 96, 48, 24, 0, 48, 24, 12, 12, 12, 24, 48, 0,
  0, 72, 48, 252, 48, 72, 0, 0, 0, 48, 48, 252, 48, 48, 0, 0,
  0, 0, 0, 0, 0, 48, 48, 96, 0, 0, 0, 252, 0, 0, 0, 0,
  0, 0, 0, 0, 0, 48, 48, 0, 2, 6, 12, 24, 48, 96, 192, 0,
  124, 198, 214, 214, 214, 198, 124, 0, 24, 56, 120, 24, 24, 24, 126, 0,
  120, 204, 12, 24, 48, 96, 252, 0, 120, 204, 12, 56, 12, 204, 120, 0,
  12, 28, 60, 108, 254, 12, 12, 0, 254, 192, 252, 6, 6, 198, 124, 0,
  60, 96, 192, 252, 198, 198, 124, 0, 254, 198, 12, 24, 48, 48, 48, 0,
  124, 198, 198, 124, 198, 198, 124, 0, 124, 198, 198, 126, 6, 12, 120, 0,
  0, 48, 48, 0, 0, 48, 48, 0, 0, 48, 48, 0, 0, 48, 48, 96,
  12, 24, 48, 96, 48, 24, 12, 0, 0, 0, 252, 0, 0, 252, 0, 0,
  96, 48, 24, 12, 24, 48, 96, 0, 120, 204, 24, 48, 48, 0, 48, 0,
  124, 198, 222, 222, 222, 192, 126, 0, 56, 108, 198, 198, 254, 198, 198, 0,
  252, 198, 198, 252, 198, 198, 252, 0, 124, 198, 192, 192, 192, 198, 124, 0,
  248, 204, 198, 198, 198, 204, 248, 0, 252, 192, 192, 248, 192, 192, 252, 0,
  252, 192, 192, 248, 192, 192, 192, 0, 124, 198, 192, 222, 198, 198, 126, 0,
  198, 198, 198, 254, 198, 198, 198, 0, 252, 48, 48, 48, 48, 48, 252, 0,
  30, 12, 12, 12, 12, 204, 120, 0, 198, 204, 216, 240, 216, 204, 198, 0,
  192, 192, 192, 192, 192, 192, 254, 0, 198, 238, 254, 214, 214, 198, 198, 0,
  198, 230, 246, 222, 206, 198, 198, 0, 124, 198, 198, 198, 198, 198, 124, 0,
  252, 198, 198, 252, 192, 192, 192, 0, 124, 198, 198, 198, 218, 204, 118, 0,
  252, 198, 198, 252, 216, 204, 198, 0, 124, 198, 192, 124, 6, 198, 124, 0,
  255, 24, 24, 24, 24, 24, 24, 0, 198, 198, 198, 198, 198, 198, 124, 0,
  198, 198, 198, 108, 108, 56, 56, 0, 198, 198, 214, 214, 254, 238, 198, 0,
  198, 198, 108, 56, 108, 198, 198, 0, 195, 195, 102, 60, 24, 24, 24, 0,
  254, 6, 12, 56, 96, 192, 254, 0, 120, 96, 96, 96, 96, 96, 120, 0,
  192, 96, 48, 24, 12, 6, 3, 0, 120, 24, 24, 24, 24, 24, 120, 0,
  48, 120, 204, 0, 0, 0, 0, 0, 0, 0, 0, 0, 0, 0, 0, 255,
  48, 48, 24, 0, 0, 0, 0, 0, 0, 0, 124, 6, 126, 198, 126, 0,
  192, 192, 220, 230, 198, 230, 220, 0, 0, 0, 124, 198, 192, 198, 124, 0,
  6, 6, 118, 206, 198, 206, 118, 0, 0, 0, 124, 198, 254, 192, 126, 0,
  28, 54, 48, 124, 48, 48, 48, 0, 0, 0, 118, 206, 206, 118, 6, 124,
  192, 192, 220, 230, 198, 198, 198, 0, 48, 0, 112, 48, 48, 48, 120, 0,
  12, 0, 28, 12, 12, 12, 204, 120, 96, 96, 102, 108, 120, 108, 102, 0,
  112, 48, 48, 48, 48, 48, 120, 0, 0, 0, 236, 214, 214, 214, 214, 0,
  0, 0, 220, 230, 198, 198, 198, 0, 0, 0, 124, 198, 198, 198, 124, 0,
  0, 0, 220, 230, 230, 220, 192, 192, 0, 0, 118, 206, 206, 118, 6, 6,
  0, 0, 222, 224, 192, 192, 192, 0, 0, 0, 126, 192, 124, 6, 252, 0,
  48, 48, 124, 48, 48, 54, 28, 0, 0, 0, 198, 198, 198, 206, 118, 0,
  0, 0, 198, 198, 108, 108, 56, 0, 0, 0, 198, 214, 214, 238, 68, 0,
  0, 0, 198, 108, 56, 108, 198, 0, 0, 0, 198, 198, 206, 118, 6, 124,
  0, 0, 126, 12, 24, 48, 126, 0, 28, 48, 48, 224, 48, 48, 28, 0,
  48, 48, 48, 0, 48, 48, 48, 0, 224, 48, 48, 28, 48, 48, 224, 0,
  118, 220, 0, 0, 0, 0, 0, 0, 16, 56, 108, 198, 198, 254, 0, 0,
  60, 102, 192, 192, 102, 56, 12, 56, 108, 0, 198, 198, 198, 206, 118, 0,
  30, 0, 124, 198, 254, 192, 126, 0, 124, 130, 124, 6, 126, 198, 126, 0,
  108, 0, 124, 6, 126, 198, 126, 0, 240, 0, 124, 6, 126, 198, 126, 0,
  56, 40, 124, 6, 126, 198, 126, 0, 0, 0, 124, 192, 192, 124, 24, 48,
  124, 130, 124, 198, 254, 192, 126, 0, 108, 0, 124, 198, 254, 192, 126, 0,
  240, 0, 124, 198, 254, 192, 126, 0, 108, 0, 56, 24, 24, 24, 60, 0,
  124, 198, 56, 24, 24, 24, 60, 0, 112, 0, 56, 24, 24, 24, 60, 0,
  198, 56, 108, 198, 254, 198, 198, 0, 56, 108, 56, 108, 198, 254, 198, 0,
  30, 0, 126, 96, 124, 96, 126, 0, 0, 0, 110, 27, 127, 216, 127, 0,
  62, 120, 216, 254, 216, 216, 222, 0, 124, 130, 124, 198, 198, 198, 124, 0,
  108, 0, 124, 198, 198, 198, 124, 0, 240, 0, 124, 198, 198, 198, 124, 0,
  124, 130, 0, 198, 198, 206, 118, 0, 240, 0, 198, 198, 198, 206, 118, 0,
  108, 0, 198, 198, 206, 118, 6, 124, 198, 124, 198, 198, 198, 198, 124, 0,
  108, 0, 198, 198, 198, 198, 124, 0, 24, 24, 126, 192, 192, 126, 24, 24,
  56, 108, 96, 240, 96, 230, 252, 0, 204, 204, 120, 48, 252, 48, 252, 48,
  248, 204, 204, 240, 204, 222, 204, 206, 14, 27, 24, 62, 24, 24, 216, 112,
  30, 0, 124, 6, 126, 198, 126, 0, 30, 0, 56, 24, 24, 24, 60, 0,
  30, 0, 124, 198, 198, 198, 124, 0, 30, 0, 198, 198, 198, 198, 124, 0,
  118, 220, 0, 220, 230, 198, 198, 0, 118, 220, 230, 246, 222, 206, 198, 0,
  120, 216, 216, 108, 0, 252, 0, 0, 120, 204, 204, 120, 0, 252, 0, 0,
  48, 0, 48, 48, 96, 204, 120, 0, 0, 0, 0, 252, 192, 192, 0, 0,
  0, 0, 0, 252, 12, 12, 0, 0, 195, 198, 204, 216, 54, 99, 198, 15,
  195, 198, 204, 219, 55, 111, 223, 3, 48, 0, 48, 48, 120, 120, 48, 0,
  0, 54, 108, 216, 108, 54, 0, 0, 0, 216, 108, 54, 108, 216, 0, 0,
  34, 136, 34, 136, 34, 136, 34, 136, 85, 170, 85, 170, 85, 170, 85, 170,
  221, 119, 221, 119, 221, 119, 221, 119, 8, 8, 8, 8, 8, 8, 8, 8,
  8, 8, 8, 248, 8, 8, 8, 8, 8, 8, 248, 8, 248, 8, 8, 8,
  20, 20, 20, 244, 20, 20, 20, 20, 0, 0, 0, 252, 20, 20, 20, 20,
  0, 0, 248, 8, 248, 8, 8, 8, 20, 20, 244, 4, 244, 20, 20, 20,
  20, 20, 20, 20, 20, 20, 20, 20, 0, 0, 252, 4, 244, 20, 20, 20,
  20, 20, 244, 4, 252, 0, 0, 0, 20, 20, 20, 252, 0, 0, 0, 0,
  8, 8, 248, 8, 248, 0, 0, 0, 0, 0, 0, 248, 8, 8, 8, 8,
  8, 8, 8, 15, 0, 0, 0, 0, 8, 8, 8, 255, 0, 0, 0, 0,
  0, 0, 0, 255, 8, 8, 8, 8, 8, 8, 8, 15, 8, 8, 8, 8,
  0, 0, 0, 255, 0, 0, 0, 0, 8, 8, 8, 255, 8, 8, 8, 8,
  8, 8, 15, 8, 15, 8, 8, 8, 20, 20, 20, 23, 20, 20, 20, 20,
  20, 20, 23, 16, 31, 0, 0, 0, 0, 0, 31, 16, 23, 20, 20, 20,
  20, 20, 247, 0, 255, 0, 0, 0, 0, 0, 255, 0, 247, 20, 20, 20,
  20, 20, 23, 16, 23, 20, 20, 20, 0, 0, 255, 0, 255, 0, 0, 0,
  20, 20, 247, 0, 247, 20, 20, 20, 8, 8, 255, 0, 255, 0, 0, 0,
  20, 20, 20, 255, 0, 0, 0, 0, 0, 0, 255, 0, 255, 8, 8, 8,
  0, 0, 0, 255, 20, 20, 20, 20, 20, 20, 20, 31, 0, 0, 0, 0,
  8, 8, 15, 8, 15, 0, 0, 0, 0, 0, 15, 8, 15, 8, 8, 8,
  0, 0, 0, 31, 20, 20, 20, 20, 20, 20, 20, 255, 20, 20, 20, 20,
  8, 8, 255, 8, 255, 8, 8, 8, 8, 8, 8, 248, 0, 0, 0, 0,
  0, 0, 0, 15, 8, 8, 8, 8, 255, 255, 255, 255, 255, 255, 255, 255,
  0, 0, 0, 0, 255, 255, 255, 255, 240, 240, 240, 240, 240, 240, 240, 240,
  15, 15, 15, 15, 15, 15, 15, 15, 255, 255, 255, 255, 0, 0, 0, 0,
  0, 0, 118, 212, 200, 212, 118, 0, 60, 102, 108, 102, 102, 102, 108, 96,
  254, 198, 192, 192, 192, 192, 192, 0, 0, 126, 254, 36, 36, 100, 198, 0,
  254, 98, 48, 24, 48, 98, 254, 0, 0, 0, 126, 200, 204, 204, 120, 0,
  0, 0, 102, 102, 102, 118, 108, 192, 0, 0, 126, 216, 24, 24, 24, 0,
  56, 16, 124, 198, 124, 16, 56, 0, 56, 108, 198, 254, 198, 108, 56, 0,
  56, 108, 198, 198, 108, 108, 238, 0, 28, 48, 24, 60, 102, 102, 60, 0,
  0, 118, 187, 153, 221, 110, 0, 0, 12, 8, 124, 214, 214, 124, 32, 96,
  30, 48, 96, 126, 96, 48, 30, 0, 124, 198, 198, 198, 198, 198, 198, 0,
  0, 252, 0, 252, 0, 252, 0, 0, 48, 48, 252, 48, 48, 0, 252, 0,
  224, 56, 14, 56, 224, 0, 254, 0, 14, 56, 224, 56, 14, 0, 254, 0,
  28, 54, 54, 48, 48, 48, 48, 48, 24, 24, 24, 24, 24, 216, 216, 112,
  48, 48, 0, 252, 0, 48, 48, 0, 0, 118, 220, 0, 118, 220, 0, 0,
  120, 204, 204, 120, 0, 0, 0, 0, 0, 0, 0, 48, 48, 0, 0, 0,
  0, 0, 0, 0, 48, 0, 0, 0, 30, 24, 24, 24, 216, 120, 56, 24,
  216, 236, 204, 204, 204, 0, 0, 0, 120, 204, 56, 96, 252, 0, 0, 0,
  0, 0, 120, 120, 120, 120, 0, 0, 0, 0, 0, 0, 0, 0, 0, 0]

/-- fonts.py 1310-1566 `font8x14sanserif`: the height of the glyphs and the rows of 256 glyphs, eight pixels in each byte -/
def font8x14sanserif : Bytes := [14,
  0, 0, 0, 0, 0, 0, 0, 0, 0, 0, 0, 0, 0, 0, 0, 126, 129, 165, 129, 129, 189, 153, 129, 126, 0, 0, 0, 0,
  0, 126, 255, 219, 255, 255, 195, 231, 255, 126, 0, 0, 0, 0, 0, 0, 54, 127, 127, 127, 127, 62, 28, 8, 0, 0, 0, 0,
  0, 0, 8, 28, 62, 127, 62, 28, 8, 0, 0, 0, 0, 0, 0, 28, 28, 8, 107, 127, 107, 8, 28, 28, 0, 0, 0, 0,
  0, 8, 28, 62, 127, 127, 62, 8, 28, 62, 0, 0, 0, 0, 0, 0, 0, 0, 24, 60, 60, 24, 0, 0, 0, 0, 0, 255,
  255, 255, 255, 255, 231, 195, 195, 231, 255, 255, 255, 255, 255, 0, 0, 0, 0, 60, 102, 66, 66, 102, 60, 0, 0, 0, 0, 255,
  255, 255, 255, 195, 153, 189, 189, 153, 195, 255, 255, 255, 255, 0, 0, 7, 3, 5, 8, 62, 65, 65, 65, 62, 0, 0, 0, 0,
  0, 62, 65, 65, 65, 62, 8, 127, 8, 8, 0, 0, 0, 0, 0, 24, 20, 18, 18, 16, 16, 48, 112, 48, 0, 0, 0, 0,
  0, 31, 17, 31, 17, 17, 17, 19, 55, 114, 32, 0, 0, 0, 0, 8, 73, 42, 20, 99, 20, 42, 73, 8, 0, 0, 0, 0,
  0, 64, 96, 112, 124, 127, 124, 112, 96, 64, 0, 0, 0, 0, 0, 1, 3, 7, 31, 127, 31, 7, 3, 1, 0, 0, 0, 0,
  0, 16, 56, 124, 16, 16, 16, 124, 56, 16, 0, 0, 0, 0, 0, 36, 36, 36, 36, 36, 36, 0, 36, 36, 0, 0, 0, 0,
  0, 63, 122, 122, 122, 58, 10, 10, 10, 10, 0, 0, 0, 0, 12, 18, 16, 12, 18, 33, 33, 18, 12, 2, 18, 12, 0, 0,
  0, 0, 0, 0, 0, 0, 0, 127, 127, 127, 0, 0, 0, 0, 0, 16, 56, 124, 16, 16, 16, 124, 56, 16, 124, 0, 0, 0,
  0, 16, 56, 124, 16, 16, 16, 16, 16, 16, 0, 0, 0, 0, 0, 16, 16, 16, 16, 16, 16, 124, 56, 16, 0, 0, 0, 0,
  0, 0, 0, 4, 6, 127, 6, 4, 0, 0, 0, 0, 0, 0, 0, 0, 0, 16, 48, 127, 48, 16, 0, 0, 0, 0, 0, 0,
  0, 0, 0, 0, 64, 64, 64, 127, 0, 0, 0, 0, 0, 0, 0, 0, 0, 20, 54, 127, 54, 20, 0, 0, 0, 0, 0, 0,
  0, 0, 8, 28, 28, 62, 62, 127, 127, 0, 0, 0, 0, 0, 0, 0, 127, 127, 62, 62, 28, 28, 8, 0, 0, 0, 0, 0,
  0, 0, 0, 0, 0, 0, 0, 0, 0, 0, 0, 0, 0, 0, 0, 8, 8, 8, 8, 8, 8, 0, 8, 8, 0, 0, 0, 0,
  0, 18, 18, 18, 0, 0, 0, 0, 0, 0, 0, 0, 0, 0, 0, 18, 18, 63, 18, 18, 63, 18, 18, 0, 0, 0, 0, 0,
  8, 8, 28, 34, 32, 28, 2, 34, 28, 8, 8, 0, 0, 0, 0, 48, 72, 50, 4, 8, 16, 38, 9, 6, 0, 0, 0, 0,
  0, 24, 36, 36, 24, 24, 37, 66, 36, 26, 0, 0, 0, 0, 0, 12, 4, 8, 0, 0, 0, 0, 0, 0, 0, 0, 0, 0,
  2, 4, 8, 16, 16, 16, 16, 16, 8, 4, 2, 0, 0, 0, 16, 8, 4, 2, 2, 2, 2, 2, 4, 8, 16, 0, 0, 0,
  0, 0, 0, 18, 12, 51, 12, 18, 0, 0, 0, 0, 0, 0, 0, 0, 0, 8, 8, 62, 8, 8, 0, 0, 0, 0, 0, 0,
  0, 0, 0, 0, 0, 0, 0, 0, 12, 12, 4, 8, 0, 0, 0, 0, 0, 0, 0, 63, 0, 0, 0, 0, 0, 0, 0, 0,
  0, 0, 0, 0, 0, 0, 0, 0, 12, 12, 0, 0, 0, 0, 0, 0, 1, 2, 4, 8, 16, 32, 64, 0, 0, 0, 0, 0,
  0, 30, 35, 37, 37, 41, 41, 41, 49, 30, 0, 0, 0, 0, 0, 8, 24, 40, 8, 8, 8, 8, 8, 62, 0, 0, 0, 0,
  0, 30, 33, 1, 1, 14, 16, 32, 32, 63, 0, 0, 0, 0, 0, 30, 33, 1, 1, 14, 1, 1, 33, 30, 0, 0, 0, 0,
  0, 2, 6, 10, 18, 34, 63, 2, 2, 2, 0, 0, 0, 0, 0, 62, 32, 32, 60, 34, 1, 1, 34, 28, 0, 0, 0, 0,
  0, 30, 33, 32, 32, 62, 33, 33, 33, 30, 0, 0, 0, 0, 0, 63, 1, 2, 4, 8, 8, 8, 8, 8, 0, 0, 0, 0,
  0, 30, 33, 33, 33, 30, 33, 33, 33, 30, 0, 0, 0, 0, 0, 30, 33, 33, 33, 31, 1, 1, 33, 30, 0, 0, 0, 0,
  0, 0, 0, 0, 12, 12, 0, 0, 12, 12, 0, 0, 0, 0, 0, 0, 0, 0, 12, 12, 0, 0, 12, 12, 4, 8, 0, 0,
  0, 2, 4, 8, 16, 32, 16, 8, 4, 2, 0, 0, 0, 0, 0, 0, 0, 0, 63, 0, 63, 0, 0, 0, 0, 0, 0, 0,
  0, 32, 16, 8, 4, 2, 4, 8, 16, 32, 0, 0, 0, 0, 0, 30, 33, 33, 2, 4, 8, 0, 8, 8, 0, 0, 0, 0,
  0, 30, 33, 39, 41, 41, 41, 39, 32, 30, 0, 0, 0, 0, 0, 12, 18, 33, 33, 33, 63, 33, 33, 33, 0, 0, 0, 0,
  0, 62, 33, 33, 33, 62, 33, 33, 33, 62, 0, 0, 0, 0, 0, 30, 33, 32, 32, 32, 32, 32, 33, 30, 0, 0, 0, 0,
  0, 60, 34, 33, 33, 33, 33, 33, 34, 60, 0, 0, 0, 0, 0, 63, 32, 32, 32, 62, 32, 32, 32, 63, 0, 0, 0, 0,
  0, 63, 32, 32, 32, 62, 32, 32, 32, 32, 0, 0, 0, 0, 0, 30, 33, 32, 32, 39, 33, 33, 33, 30, 0, 0, 0, 0,
  0, 33, 33, 33, 33, 63, 33, 33, 33, 33, 0, 0, 0, 0, 0, 62, 8, 8, 8, 8, 8, 8, 8, 62, 0, 0, 0, 0,
  0, 1, 1, 1, 1, 1, 1, 33, 33, 30, 0, 0, 0, 0, 0, 33, 34, 36, 40, 48, 40, 36, 34, 33, 0, 0, 0, 0,
  0, 32, 32, 32, 32, 32, 32, 32, 32, 63, 0, 0, 0, 0, 0, 33, 51, 45, 33, 33, 33, 33, 33, 33, 0, 0, 0, 0,
  0, 33, 33, 49, 41, 37, 35, 33, 33, 33, 0, 0, 0, 0, 0, 30, 33, 33, 33, 33, 33, 33, 33, 30, 0, 0, 0, 0,
  0, 62, 33, 33, 33, 62, 32, 32, 32, 32, 0, 0, 0, 0, 0, 30, 33, 33, 33, 33, 33, 37, 37, 30, 3, 0, 0, 0,
  0, 62, 33, 33, 33, 62, 33, 33, 33, 33, 0, 0, 0, 0, 0, 30, 33, 32, 32, 30, 1, 1, 33, 30, 0, 0, 0, 0,
  0, 127, 8, 8, 8, 8, 8, 8, 8, 8, 0, 0, 0, 0, 0, 33, 33, 33, 33, 33, 33, 33, 33, 30, 0, 0, 0, 0,
  0, 65, 65, 65, 65, 65, 65, 34, 20, 8, 0, 0, 0, 0, 0, 65, 65, 65, 65, 73, 73, 85, 99, 65, 0, 0, 0, 0,
  0, 33, 33, 33, 18, 12, 18, 33, 33, 33, 0, 0, 0, 0, 0, 65, 65, 65, 34, 20, 8, 8, 8, 8, 0, 0, 0, 0,
  0, 127, 1, 2, 4, 8, 16, 32, 64, 127, 0, 0, 0, 0, 30, 16, 16, 16, 16, 16, 16, 16, 16, 16, 30, 0, 0, 0,
  0, 0, 64, 32, 16, 8, 4, 2, 1, 0, 0, 0, 0, 0, 30, 2, 2, 2, 2, 2, 2, 2, 2, 2, 30, 0, 0, 0,
  0, 8, 20, 34, 0, 0, 0, 0, 0, 0, 0, 0, 0, 0, 0, 0, 0, 0, 0, 0, 0, 0, 0, 0, 0, 63, 0, 0,
  0, 24, 16, 8, 0, 0, 0, 0, 0, 0, 0, 0, 0, 0, 0, 0, 0, 0, 30, 1, 31, 33, 35, 29, 0, 0, 0, 0,
  0, 32, 32, 32, 46, 49, 33, 33, 49, 46, 0, 0, 0, 0, 0, 0, 0, 0, 30, 33, 32, 32, 33, 30, 0, 0, 0, 0,
  0, 1, 1, 1, 29, 35, 33, 33, 35, 29, 0, 0, 0, 0, 0, 0, 0, 0, 30, 33, 63, 32, 33, 30, 0, 0, 0, 0,
  0, 6, 9, 8, 62, 8, 8, 8, 8, 8, 0, 0, 0, 0, 0, 0, 0, 0, 29, 35, 33, 33, 35, 29, 1, 30, 0, 0,
  0, 32, 32, 32, 46, 49, 33, 33, 33, 33, 0, 0, 0, 0, 0, 8, 8, 0, 24, 8, 8, 8, 8, 62, 0, 0, 0, 0,
  0, 2, 2, 0, 6, 2, 2, 2, 2, 2, 18, 12, 0, 0, 0, 32, 32, 32, 34, 36, 40, 52, 34, 33, 0, 0, 0, 0,
  0, 24, 8, 8, 8, 8, 8, 8, 8, 62, 0, 0, 0, 0, 0, 0, 0, 0, 126, 73, 73, 73, 73, 73, 0, 0, 0, 0,
  0, 0, 0, 0, 46, 49, 33, 33, 33, 33, 0, 0, 0, 0, 0, 0, 0, 0, 30, 33, 33, 33, 33, 30, 0, 0, 0, 0,
  0, 0, 0, 0, 46, 49, 33, 33, 49, 46, 32, 32, 0, 0, 0, 0, 0, 0, 29, 35, 33, 33, 35, 29, 1, 1, 0, 0,
  0, 0, 0, 0, 44, 50, 32, 32, 32, 32, 0, 0, 0, 0, 0, 0, 0, 0, 30, 33, 24, 6, 33, 30, 0, 0, 0, 0,
  0, 8, 8, 8, 62, 8, 8, 8, 9, 6, 0, 0, 0, 0, 0, 0, 0, 0, 33, 33, 33, 33, 35, 29, 0, 0, 0, 0,
  0, 0, 0, 0, 65, 65, 65, 34, 20, 8, 0, 0, 0, 0, 0, 0, 0, 0, 65, 73, 73, 85, 34, 34, 0, 0, 0, 0,
  0, 0, 0, 0, 33, 18, 12, 12, 18, 33, 0, 0, 0, 0, 0, 0, 0, 0, 33, 33, 33, 33, 35, 29, 1, 30, 0, 0,
  0, 0, 0, 0, 63, 2, 4, 8, 16, 63, 0, 0, 0, 0, 6, 8, 8, 8, 8, 48, 8, 8, 8, 8, 6, 0, 0, 0,
  0, 8, 8, 8, 8, 8, 8, 8, 8, 8, 0, 0, 0, 0, 48, 8, 8, 8, 8, 6, 8, 8, 8, 8, 48, 0, 0, 0,
  0, 0, 0, 0, 50, 76, 0, 0, 0, 0, 0, 0, 0, 0, 0, 0, 0, 8, 20, 20, 34, 34, 65, 127, 0, 0, 0, 0,
  0, 14, 17, 32, 32, 32, 32, 32, 17, 14, 4, 12, 0, 0, 0, 18, 18, 0, 33, 33, 33, 33, 35, 29, 0, 0, 0, 0,
  0, 2, 4, 0, 30, 33, 63, 32, 33, 30, 0, 0, 0, 0, 0, 12, 18, 0, 30, 1, 31, 33, 35, 29, 0, 0, 0, 0,
  0, 18, 18, 0, 30, 1, 31, 33, 35, 29, 0, 0, 0, 0, 0, 16, 8, 0, 30, 1, 31, 33, 35, 29, 0, 0, 0, 0,
  0, 12, 18, 12, 30, 1, 31, 33, 35, 29, 0, 0, 0, 0, 0, 0, 0, 0, 14, 17, 32, 32, 17, 14, 4, 12, 0, 0,
  0, 12, 18, 0, 30, 33, 63, 32, 33, 30, 0, 0, 0, 0, 0, 18, 18, 0, 30, 33, 63, 32, 33, 30, 0, 0, 0, 0,
  0, 16, 8, 0, 30, 33, 63, 32, 33, 30, 0, 0, 0, 0, 0, 34, 34, 0, 24, 8, 8, 8, 8, 62, 0, 0, 0, 0,
  0, 24, 36, 0, 24, 8, 8, 8, 8, 62, 0, 0, 0, 0, 0, 16, 8, 0, 24, 8, 8, 8, 8, 62, 0, 0, 0, 18,
  18, 0, 12, 18, 33, 33, 63, 33, 33, 33, 0, 0, 0, 12, 18, 12, 0, 12, 18, 33, 63, 33, 33, 33, 0, 0, 0, 2,
  4, 0, 63, 32, 32, 62, 32, 32, 32, 63, 0, 0, 0, 0, 0, 0, 0, 0, 62, 5, 31, 36, 36, 27, 0, 0, 0, 0,
  0, 31, 36, 36, 36, 63, 36, 36, 36, 39, 0, 0, 0, 0, 0, 12, 18, 0, 30, 33, 33, 33, 33, 30, 0, 0, 0, 0,
  0, 18, 18, 0, 30, 33, 33, 33, 33, 30, 0, 0, 0, 0, 0, 16, 8, 0, 30, 33, 33, 33, 33, 30, 0, 0, 0, 0,
  0, 12, 18, 0, 33, 33, 33, 33, 35, 29, 0, 0, 0, 0, 0, 16, 8, 0, 33, 33, 33, 33, 35, 29, 0, 0, 0, 0,
  0, 18, 18, 0, 33, 33, 33, 33, 35, 29, 1, 62, 0, 18, 18, 0, 30, 33, 33, 33, 33, 33, 33, 30, 0, 0, 0, 18,
  18, 0, 33, 33, 33, 33, 33, 33, 33, 30, 0, 0, 0, 0, 0, 4, 4, 14, 17, 32, 32, 17, 14, 4, 4, 0, 0, 0,
  0, 14, 16, 16, 56, 16, 56, 16, 17, 62, 0, 0, 0, 0, 0, 65, 34, 20, 20, 127, 8, 127, 8, 8, 0, 0, 0, 0,
  120, 68, 68, 120, 68, 95, 68, 68, 69, 66, 0, 0, 0, 0, 0, 7, 8, 8, 8, 62, 8, 8, 8, 72, 48, 0, 0, 0,
  0, 2, 4, 0, 30, 1, 31, 33, 35, 29, 0, 0, 0, 0, 0, 4, 8, 0, 24, 8, 8, 8, 8, 62, 0, 0, 0, 0,
  0, 2, 4, 0, 30, 33, 33, 33, 33, 30, 0, 0, 0, 0, 0, 2, 4, 0, 33, 33, 33, 33, 35, 29, 0, 0, 0, 0,
  0, 25, 38, 0, 46, 49, 33, 33, 33, 33, 0, 0, 0, 25, 38, 0, 33, 33, 49, 41, 37, 35, 33, 33, 0, 0, 0, 0,
  0, 30, 1, 31, 33, 35, 29, 0, 0, 63, 0, 0, 0, 0, 0, 30, 33, 33, 33, 33, 30, 0, 0, 63, 0, 0, 0, 0,
  0, 0, 4, 4, 0, 4, 8, 16, 33, 33, 30, 0, 0, 0, 0, 0, 0, 0, 127, 64, 64, 64, 0, 0, 0, 0, 0, 0,
  0, 0, 0, 0, 127, 1, 1, 1, 0, 0, 0, 0, 0, 4, 12, 4, 4, 4, 0, 63, 0, 12, 18, 4, 8, 30, 0, 8,
  24, 8, 8, 8, 0, 127, 0, 12, 20, 36, 126, 4, 0, 0, 0, 0, 8, 8, 0, 8, 8, 8, 8, 8, 8, 0, 0, 0,
  0, 0, 0, 0, 18, 36, 72, 36, 18, 0, 0, 0, 0, 0, 0, 0, 0, 0, 72, 36, 18, 36, 72, 0, 0, 0, 0, 170,
  0, 170, 0, 170, 0, 170, 0, 170, 0, 170, 0, 170, 0, 170, 85, 170, 85, 170, 85, 170, 85, 170, 85, 170, 85, 170, 85, 68,
  34, 68, 34, 68, 34, 68, 34, 68, 34, 68, 34, 68, 34, 16, 16, 16, 16, 16, 16, 16, 16, 16, 16, 16, 16, 16, 16, 16,
  16, 16, 16, 16, 16, 240, 16, 16, 16, 16, 16, 16, 16, 16, 16, 16, 16, 16, 16, 240, 16, 240, 16, 16, 16, 16, 16, 36,
  36, 36, 36, 36, 36, 228, 36, 36, 36, 36, 36, 36, 36, 0, 0, 0, 0, 0, 0, 252, 36, 36, 36, 36, 36, 36, 36, 0,
  0, 0, 0, 0, 0, 240, 16, 240, 16, 16, 16, 16, 16, 36, 36, 36, 36, 36, 36, 228, 4, 228, 36, 36, 36, 36, 36, 36,
  36, 36, 36, 36, 36, 36, 36, 36, 36, 36, 36, 36, 36, 0, 0, 0, 0, 0, 0, 252, 4, 228, 36, 36, 36, 36, 36, 36,
  36, 36, 36, 36, 36, 228, 4, 252, 0, 0, 0, 0, 0, 36, 36, 36, 36, 36, 36, 252, 0, 0, 0, 0, 0, 0, 0, 16,
  16, 16, 16, 16, 16, 240, 16, 240, 0, 0, 0, 0, 0, 0, 0, 0, 0, 0, 0, 240, 16, 16, 16, 16, 16, 16, 16, 16,
  16, 16, 16, 16, 16, 31, 0, 0, 0, 0, 0, 0, 0, 16, 16, 16, 16, 16, 16, 255, 0, 0, 0, 0, 0, 0, 0, 0,
  0, 0, 0, 0, 0, 255, 16, 16, 16, 16, 16, 16, 16, 16, 16, 16, 16, 16, 16, 31, 16, 16, 16, 16, 16, 16, 16, 0,
  0, 0, 0, 0, 0, 255, 0, 0, 0, 0, 0, 0, 0, 16, 16, 16, 16, 16, 16, 255, 16, 16, 16, 16, 16, 16, 16, 16,
  16, 16, 16, 16, 16, 31, 16, 31, 16, 16, 16, 16, 16, 36, 36, 36, 36, 36, 36, 39, 36, 36, 36, 36, 36, 36, 36, 36,
  36, 36, 36, 36, 36, 39, 32, 63, 0, 0, 0, 0, 0, 0, 0, 0, 0, 0, 0, 63, 32, 39, 36, 36, 36, 36, 36, 36,
  36, 36, 36, 36, 36, 231, 0, 255, 0, 0, 0, 0, 0, 0, 0, 0, 0, 0, 0, 255, 0, 231, 36, 36, 36, 36, 36, 36,
  36, 36, 36, 36, 36, 39, 32, 39, 36, 36, 36, 36, 36, 0, 0, 0, 0, 0, 0, 255, 0, 255, 0, 0, 0, 0, 0, 36,
  36, 36, 36, 36, 36, 231, 0, 231, 36, 36, 36, 36, 36, 16, 16, 16, 16, 16, 16, 255, 0, 255, 0, 0, 0, 0, 0, 36,
  36, 36, 36, 36, 36, 255, 0, 0, 0, 0, 0, 0, 0, 0, 0, 0, 0, 0, 0, 255, 0, 255, 16, 16, 16, 16, 16, 0,
  0, 0, 0, 0, 0, 255, 36, 36, 36, 36, 36, 36, 36, 36, 36, 36, 36, 36, 36, 63, 0, 0, 0, 0, 0, 0, 0, 16,
  16, 16, 16, 16, 16, 31, 16, 31, 0, 0, 0, 0, 0, 0, 0, 0, 0, 0, 0, 31, 16, 31, 16, 16, 16, 16, 16, 0,
  0, 0, 0, 0, 0, 63, 36, 36, 36, 36, 36, 36, 36, 36, 36, 36, 36, 36, 36, 255, 36, 36, 36, 36, 36, 36, 36, 16,
  16, 16, 16, 16, 16, 255, 0, 255, 16, 16, 16, 16, 16, 16, 16, 16, 16, 16, 16, 240, 0, 0, 0, 0, 0, 0, 0, 0,
  0, 0, 0, 0, 0, 31, 16, 16, 16, 16, 16, 16, 16, 255, 255, 255, 255, 255, 255, 255, 255, 255, 255, 255, 255, 255, 255, 0,
  0, 0, 0, 0, 0, 255, 255, 255, 255, 255, 255, 255, 255, 240, 240, 240, 240, 240, 240, 240, 240, 240, 240, 240, 240, 240, 240, 15,
  15, 15, 15, 15, 15, 15, 15, 15, 15, 15, 15, 15, 15, 255, 255, 255, 255, 255, 255, 0, 0, 0, 0, 0, 0, 0, 0, 0,
  0, 0, 0, 25, 37, 66, 66, 66, 37, 25, 0, 0, 0, 0, 0, 30, 33, 33, 34, 36, 34, 33, 33, 46, 32, 32, 0, 0,
  0, 127, 65, 65, 64, 64, 64, 64, 64, 64, 0, 0, 0, 0, 0, 0, 0, 63, 84, 20, 20, 20, 20, 34, 0, 0, 0, 0,
  0, 127, 33, 16, 8, 4, 8, 16, 33, 127, 0, 0, 0, 0, 0, 0, 0, 31, 36, 66, 66, 66, 36, 24, 0, 0, 0, 0,
  0, 0, 0, 34, 34, 34, 34, 34, 34, 61, 32, 64, 0, 0, 0, 0, 0, 63, 72, 8, 8, 8, 8, 4, 0, 0, 0, 0,
  0, 62, 8, 28, 42, 73, 42, 28, 8, 62, 0, 0, 0, 0, 0, 28, 34, 65, 65, 127, 65, 65, 34, 28, 0, 0, 0, 0,
  0, 28, 34, 65, 65, 65, 65, 34, 20, 119, 0, 0, 0, 0, 0, 28, 32, 32, 16, 56, 68, 66, 66, 60, 0, 0, 0, 0,
  0, 0, 0, 0, 54, 73, 73, 54, 0, 0, 0, 0, 0, 0, 0, 1, 2, 62, 69, 73, 81, 62, 32, 64, 0, 0, 0, 0,
  0, 31, 32, 64, 64, 127, 64, 64, 32, 31, 0, 0, 0, 0, 0, 28, 34, 65, 65, 65, 65, 65, 65, 65, 0, 0, 0, 0,
  0, 0, 127, 0, 0, 127, 0, 0, 127, 0, 0, 0, 0, 0, 0, 0, 8, 8, 62, 8, 8, 0, 62, 0, 0, 0, 0, 0,
  0, 32, 16, 8, 4, 8, 16, 32, 0, 60, 0, 0, 0, 0, 0, 4, 8, 16, 32, 16, 8, 4, 0, 60, 0, 0, 0, 0,
  0, 14, 27, 27, 24, 24, 24, 24, 24, 24, 24, 24, 24, 24, 24, 24, 24, 24, 24, 24, 24, 216, 216, 112, 0, 0, 0, 0,
  0, 0, 24, 24, 0, 126, 0, 24, 24, 0, 0, 0, 0, 0, 0, 0, 16, 42, 4, 0, 16, 42, 4, 0, 0, 0, 0, 0,
  28, 34, 34, 28, 0, 0, 0, 0, 0, 0, 0, 0, 0, 0, 0, 0, 0, 0, 0, 24, 24, 0, 0, 0, 0, 0, 0, 0,
  0, 0, 0, 0, 0, 0, 24, 0, 0, 0, 0, 0, 0, 0, 15, 8, 8, 8, 8, 8, 8, 72, 40, 24, 0, 0, 0, 0,
  0, 0, 0, 64, 46, 17, 17, 17, 17, 17, 1, 1, 0, 0, 60, 2, 2, 28, 32, 62, 0, 0, 0, 0, 0, 0, 0, 0,
  0, 0, 0, 62, 62, 62, 62, 62, 62, 0, 0, 0, 0, 0, 0, 0, 0, 0, 0, 0, 0, 0, 0, 0, 0, 0, 0, 0]
/-! ### Programs that make fonts -/

/-- source_code_gen/fontgen.py 214-222 `makecharbuf`; the dictionary is given by its `get`, a character is its code point. -/
def makecharbuf (chardict : Nat → Option (List Nat)) : Py (List Nat) :=
  match chardict 48 with
  | none => .error .keyError
  | some zero =>
    let charlen := zero.length
    let blankchar := List.replicate charlen 0
    .ok ((List.range 256).foldl (fun b i => b ++ (chardict i).getD blankchar) [charlen])

/-- source_code_gen/loadfont.py 28-33 `getcharbmp`; `data` is the content of the file -/
def getcharbmp (data : Bytes) (ch bytecnt dataptr : Nat) : Bytes := (data.drop (dataptr + bytecnt * ch)).take bytecnt

/-- source_code_gen/loadfont.py 35-41 `getcharset`; `data` is the content of the file -/
def getcharset (data : Bytes) (dataptr databytes : Nat) : Bytes := (data.drop dataptr).take (databytes * 256)

end Verif.Model
