/-! The dictionaries of named colours: colordict.py, X11colordict.py and XKCDcolordict.py, in the order of the source. -/

namespace Verif.Model

/-- A dictionary written as `{k: v, ...}`: of entries with the same key the last one counts. -/
def dictGet {α : Type} (d : List (String × α)) (k : String) : Option α := (d.reverse.find? (fun e => e.1 == k)).map Prod.snd

/-- colordict.py 2-36 `getcolorname2HSLdict`: hue in degrees, saturation and lightness in percent -/
def basicHSL : List (String × Nat × Nat × Nat) := [
  ("black", 0, 0, 0), ("blue", 240, 100, 38), ("green", 120, 100, 38), ("cyan", 180, 50, 50),
  ("red", 0, 100, 38), ("magenta", 300, 100, 38), ("brown", 60, 100, 25), ("white", 0, 0, 87),
  ("silver", 0, 0, 75), ("gray", 0, 0, 50), ("lightblue", 240, 34, 63), ("lightgreen", 120, 34, 63),
  ("lightcyan", 180, 34, 63), ("lightred", 0, 34, 63), ("yellow", 60, 100, 44), ("orange", 40, 100, 38),
  ("lightgray", 0, 0, 65), ("brightwhite", 0, 0, 100), ("brightblue", 240, 100, 50), ("brightcyan", 180, 100, 75),
  ("brightgreen", 120, 100, 50), ("brightred", 0, 100, 50), ("brightmagenta", 300, 100, 50), ("brightyellow", 60, 100, 50),
  ("brightorange", 39, 100, 50), ("darkgray", 0, 0, 36), ("darkblue", 240, 100, 18), ("darkgreen", 120, 100, 18),
  ("darkred", 0, 100, 18), ("darkmagenta", 300, 100, 18), ("darkbrown", 60, 100, 18), ("gold", 51, 100, 50),
  ("orangered", 16, 100, 50), ("flesh", 10, 35, 73)]

/-- colordict.py 39-74 `getcolorname2RGBdict` -/
def basicRGB : List (String × Nat) := [
  ("black", 0), ("blue", 192), ("green", 49152), ("cyan", 4243648), ("red", 12582912), ("magenta", 12583104),
  ("brown", 8421376), ("white", 14606046), ("silver", 12632256), ("gray", 8421504), ("lightblue", 8421568), ("lightgreen", 8437888),
  ("lightcyan", 8437952), ("lightred", 12615808), ("yellow", 14605824), ("orange", 12615680), ("lightgray", 10855845), ("brightwhite", 16777215),
  ("brightblue", 255), ("brightcyan", 8454143), ("brightgreen", 65280), ("brightred", 16711680), ("brightmagenta", 16711935), ("brightyellow", 16776960),
  ("brightorange", 16753664), ("darkgray", 6052956), ("darkblue", 92), ("darkgreen", 23552), ("darkred", 6029312), ("darkmagenta", 6029404),
  ("darkbrown", 6052864), ("gold", 16766720), ("orangered", 16729344), ("flesh", 13805985)]

/-- colordict.py 77-112 `getRGBfactors`: the decimal numbers as written, times 10 ^ 17 -/
def basicFactors : List (String × Nat × Nat × Nat) := [
  ("black", 0, 0, 0), ("blue", 0, 0, 75294117647058820), ("green", 0, 75294117647058820, 0), ("cyan", 25098039215686274, 75294117647058820, 75294117647058820),
  ("red", 75294117647058820, 0, 0), ("magenta", 75294117647058820, 0, 75294117647058820), ("brown", 50196078431372550, 50196078431372550, 0), ("white", 87058823529411770, 87058823529411770, 87058823529411770),
  ("silver", 75294117647058820, 75294117647058820, 75294117647058820), ("gray", 50196078431372550, 50196078431372550, 50196078431372550), ("lightblue", 50196078431372550, 50196078431372550, 75294117647058820), ("lightgreen", 50196078431372550, 75294117647058820, 50196078431372550),
  ("lightcyan", 50196078431372550, 75294117647058820, 75294117647058820), ("lightred", 75294117647058820, 50196078431372550, 50196078431372550), ("yellow", 87058823529411770, 87058823529411770, 0), ("orange", 75294117647058820, 50196078431372550, 0),
  ("lightgray", 64705882352941180, 64705882352941180, 64705882352941180), ("brightwhite", 100000000000000000, 100000000000000000, 100000000000000000), ("brightblue", 0, 0, 100000000000000000), ("brightcyan", 50196078431372550, 100000000000000000, 100000000000000000),
  ("brightgreen", 0, 100000000000000000, 0), ("brightred", 100000000000000000, 0, 0), ("brightmagenta", 100000000000000000, 0, 100000000000000000), ("brightyellow", 100000000000000000, 100000000000000000, 0),
  ("brightorange", 100000000000000000, 64313725490196080, 0), ("darkgray", 36078431372549020, 36078431372549020, 36078431372549020), ("darkblue", 0, 0, 36078431372549020), ("darkgreen", 0, 36078431372549020, 0),
  ("darkred", 36078431372549020, 0, 0), ("darkmagenta", 36078431372549020, 0, 36078431372549020), ("darkbrown", 36078431372549020, 36078431372549020, 0), ("gold", 100000000000000000, 84313725490196080, 0),
  ("orangered", 100000000000000000, 27058823529411763, 0), ("flesh", 82352941176470580, 66274509803921570, 63137254901960780)]

/-- X11colordict.py 1-694 `getX11colorname2HSLdict`: hue in degrees, saturation and lightness in percent -/
def x11HSL : List (String × Nat × Nat × Nat) := [
  ("aliceblue", 208, 100, 97), ("antiquewhite", 208, 100, 97), ("antiquewhite", 34, 78, 91), ("antiquewhite1", 34, 78, 91),
  ("antiquewhite2", 33, 100, 93), ("antiquewhite3", 34, 50, 87), ("antiquewhite4", 33, 22, 75), ("aqua", 171, 85, 50),
  ("aquamarine", 180, 100, 50), ("aquamarine1", 160, 100, 75), ("aquamarine2", 160, 100, 75), ("aquamarine3", 160, 78, 70),
  ("aquamarine4", 160, 51, 60), ("azure", 160, 34, 41), ("azure1", 180, 100, 97), ("azure2", 180, 100, 97),
  ("azure3", 180, 29, 91), ("azure4", 180, 11, 78), ("beige", 180, 3, 53), ("bisque", 60, 56, 91),
  ("bisque1", 33, 100, 88), ("bisque2", 33, 100, 88), ("bisque3", 33, 62, 83), ("bisque4", 32, 32, 71),
  ("black", 0, 0, 0), ("blanchedalmond", 36, 100, 90), ("blue", 240, 100, 50), ("blueviolet", 271, 76, 53),
  ("blue1", 240, 100, 50), ("blue2", 240, 100, 47), ("blue3", 240, 100, 40), ("blue4", 240, 100, 27),
  ("brown", 0, 59, 41), ("brown1", 0, 100, 63), ("brown2", 0, 84, 58), ("brown3", 0, 61, 50),
  ("brown4", 0, 60, 34), ("burlywood", 34, 57, 70), ("burlywood1", 34, 100, 80), ("burlywood2", 34, 73, 75),
  ("burlywood3", 34, 44, 65), ("burlywood4", 33, 24, 44), ("cadetblue", 182, 25, 50), ("cadetblue1", 186, 100, 80),
  ("cadetblue2", 186, 74, 75), ("cadetblue3", 186, 45, 64), ("cadetblue4", 185, 25, 44), ("chartreuse", 90, 100, 50),
  ("chartreuse1", 90, 100, 50), ("chartreuse2", 90, 100, 47), ("chartreuse3", 90, 100, 40), ("chartreuse4", 90, 100, 27),
  ("chocolate", 25, 75, 47), ("chocolate1", 25, 100, 57), ("chocolate2", 25, 86, 53), ("chocolate3", 25, 75, 46),
  ("chocolate4", 25, 76, 31), ("coral", 16, 100, 66), ("coral1", 10, 100, 67), ("coral2", 10, 82, 62),
  ("coral3", 10, 58, 54), ("coral4", 10, 49, 36), ("cornflowerblue", 219, 79, 66), ("cornsilk", 48, 100, 93),
  ("cornsilk1", 48, 100, 93), ("cornsilk2", 49, 49, 87), ("cornsilk3", 49, 22, 75), ("cornsilk4", 51, 8, 51),
  ("crimson", 348, 83, 47), ("cyan", 180, 100, 50), ("cyan1", 180, 100, 50), ("cyan2", 180, 100, 47),
  ("cyan3", 180, 100, 40), ("cyan4", 180, 100, 27), ("darkblue", 240, 100, 27), ("darkcyan", 180, 100, 27),
  ("darkgoldenrod", 43, 89, 38), ("darkgray", 0, 0, 66), ("darkgreen", 120, 100, 20), ("darkgrey", 0, 0, 66),
  ("darkkhaki", 56, 38, 58), ("darkmagenta", 300, 100, 27), ("darkolivegreen", 82, 39, 30), ("darkorange", 33, 100, 50),
  ("darkorchid", 280, 61, 50), ("darkred", 0, 100, 27), ("darksalmon", 15, 72, 70), ("darkseagreen", 120, 25, 65),
  ("darkslateblue", 248, 39, 39), ("darkslategray", 180, 25, 25), ("darkslategrey", 180, 25, 25), ("darkturquoise", 181, 100, 41),
  ("darkviolet", 282, 100, 41), ("darkblue", 240, 100, 27), ("darkgoldenrod1", 42, 100, 53), ("darkgoldenrod2", 43, 89, 49),
  ("darkgoldenrod3", 43, 89, 43), ("darkgoldenrod4", 43, 89, 29), ("darkgray", 82, 39, 30), ("darkolivegreen1", 82, 100, 72),
  ("darkolivegreen2", 82, 80, 67), ("darkolivegreen3", 82, 53, 58), ("darkolivegreen4", 82, 39, 39), ("darkorange1", 30, 100, 50),
  ("darkorange2", 30, 100, 47), ("darkorange3", 30, 100, 40), ("darkorange4", 30, 100, 27), ("darkorchid1", 280, 100, 62),
  ("darkorchid2", 280, 84, 58), ("darkorchid3", 280, 61, 50), ("darkorchid4", 280, 61, 34), ("darkred", 120, 25, 65),
  ("darkseagreen1", 120, 100, 88), ("darkseagreen2", 120, 63, 82), ("darkseagreen3", 120, 33, 71), ("darkseagreen4", 120, 14, 48),
  ("darkslateblue", 180, 25, 25), ("darkslategray1", 180, 100, 80), ("darkslategray2", 180, 74, 74), ("darkslategray3", 180, 46, 64),
  ("darkslategray4", 180, 26, 43), ("darkslategrey", 282, 100, 41), ("deeppink", 328, 100, 54), ("deepskyblue", 195, 100, 50),
  ("deeppink1", 328, 100, 54), ("deeppink2", 328, 87, 50), ("deeppink3", 328, 86, 43), ("deeppink4", 327, 87, 29),
  ("deepskyblue1", 195, 100, 50), ("deepskyblue2", 195, 100, 47), ("deepskyblue3", 195, 100, 40), ("deepskyblue4", 195, 100, 27),
  ("dimgray", 0, 0, 41), ("dimgrey", 0, 0, 41), ("dodgerblue", 210, 100, 56), ("dodgerblue1", 210, 100, 56),
  ("dodgerblue2", 210, 86, 52), ("dodgerblue3", 210, 79, 45), ("dodgerblue4", 210, 79, 30), ("firebrick", 0, 68, 42),
  ("firebrick1", 0, 100, 59), ("firebrick2", 0, 85, 55), ("firebrick3", 0, 69, 48), ("firebrick4", 0, 68, 32),
  ("floralwhite", 40, 100, 97), ("forestgreen", 120, 61, 34), ("fuchsia", 300, 100, 50), ("gainsboro", 0, 0, 86),
  ("ghostwhite", 240, 100, 99), ("gold", 51, 100, 50), ("gold1", 51, 100, 50), ("gold2", 51, 100, 47),
  ("gold3", 51, 100, 40), ("gold4", 51, 100, 27), ("goldenrod", 43, 74, 49), ("goldenrod1", 43, 100, 57),
  ("goldenrod2", 43, 86, 53), ("goldenrod3", 43, 75, 46), ("goldenrod4", 43, 75, 31), ("gray", 0, 0, 75),
  ("gray0", 0, 0, 0), ("gray1", 0, 0, 1), ("gray10", 0, 0, 10), ("gray100", 0, 0, 100),
  ("gray11", 0, 0, 11), ("gray12", 0, 0, 12), ("gray13", 0, 0, 13), ("gray14", 0, 0, 14),
  ("gray15", 0, 0, 15), ("gray16", 0, 0, 16), ("gray17", 0, 0, 17), ("gray18", 0, 0, 18),
  ("gray19", 0, 0, 19), ("gray2", 0, 0, 2), ("gray20", 0, 0, 20), ("gray21", 0, 0, 21),
  ("gray22", 0, 0, 22), ("gray23", 0, 0, 23), ("gray24", 0, 0, 24), ("gray25", 0, 0, 25),
  ("gray26", 0, 0, 26), ("gray27", 0, 0, 27), ("gray28", 0, 0, 28), ("gray29", 0, 0, 29),
  ("gray3", 0, 0, 3), ("gray30", 0, 0, 30), ("gray31", 0, 0, 31), ("gray32", 0, 0, 32),
  ("gray33", 0, 0, 33), ("gray34", 0, 0, 34), ("gray35", 0, 0, 35), ("gray36", 0, 0, 36),
  ("gray37", 0, 0, 37), ("gray38", 0, 0, 38), ("gray39", 0, 0, 39), ("gray4", 0, 0, 4),
  ("gray40", 0, 0, 40), ("gray41", 0, 0, 41), ("gray42", 0, 0, 42), ("gray43", 0, 0, 43),
  ("gray44", 0, 0, 44), ("gray45", 0, 0, 45), ("gray46", 0, 0, 46), ("gray47", 0, 0, 47),
  ("gray48", 0, 0, 48), ("gray49", 0, 0, 49), ("gray5", 0, 0, 5), ("gray50", 0, 0, 50),
  ("gray51", 0, 0, 51), ("gray52", 0, 0, 52), ("gray53", 0, 0, 53), ("gray54", 0, 0, 54),
  ("gray55", 0, 0, 55), ("gray56", 0, 0, 56), ("gray57", 0, 0, 57), ("gray58", 0, 0, 58),
  ("gray59", 0, 0, 59), ("gray6", 0, 0, 6), ("gray60", 0, 0, 60), ("gray61", 0, 0, 61),
  ("gray62", 0, 0, 62), ("gray63", 0, 0, 63), ("gray64", 0, 0, 64), ("gray65", 0, 0, 65),
  ("gray66", 0, 0, 66), ("gray67", 0, 0, 67), ("gray68", 0, 0, 68), ("gray69", 0, 0, 69),
  ("gray7", 0, 0, 7), ("gray70", 0, 0, 70), ("gray71", 0, 0, 71), ("gray72", 0, 0, 72),
  ("gray73", 0, 0, 73), ("gray74", 0, 0, 74), ("gray75", 0, 0, 75), ("gray76", 0, 0, 76),
  ("gray77", 0, 0, 77), ("gray78", 0, 0, 78), ("gray79", 0, 0, 79), ("gray8", 0, 0, 8),
  ("gray80", 0, 0, 80), ("gray81", 0, 0, 81), ("gray82", 0, 0, 82), ("gray83", 0, 0, 83),
  ("gray84", 0, 0, 84), ("gray85", 0, 0, 85), ("gray86", 0, 0, 86), ("gray87", 0, 0, 87),
  ("gray88", 0, 0, 88), ("gray89", 0, 0, 89), ("gray9", 0, 0, 9), ("gray90", 0, 0, 90),
  ("gray91", 0, 0, 91), ("gray92", 0, 0, 92), ("gray93", 0, 0, 93), ("gray94", 0, 0, 94),
  ("gray95", 0, 0, 95), ("gray96", 0, 0, 96), ("gray97", 0, 0, 97), ("gray98", 0, 0, 98),
  ("gray99", 0, 0, 99), ("green", 120, 100, 50), ("greenyellow", 84, 100, 59), ("green1", 120, 100, 50),
  ("green2", 120, 100, 47), ("green3", 120, 100, 40), ("green4", 120, 100, 27), ("grey", 0, 0, 75),
  ("grey0", 0, 0, 0), ("grey1", 0, 0, 1), ("grey10", 0, 0, 10), ("grey100", 0, 0, 100),
  ("grey11", 0, 0, 11), ("grey12", 0, 0, 12), ("grey13", 0, 0, 13), ("grey14", 0, 0, 14),
  ("grey15", 0, 0, 15), ("grey16", 0, 0, 16), ("grey17", 0, 0, 17), ("grey18", 0, 0, 18),
  ("grey19", 0, 0, 19), ("grey2", 0, 0, 2), ("grey20", 0, 0, 20), ("grey21", 0, 0, 21),
  ("grey22", 0, 0, 22), ("grey23", 0, 0, 23), ("grey24", 0, 0, 24), ("grey25", 0, 0, 25),
  ("grey26", 0, 0, 26), ("grey27", 0, 0, 27), ("grey28", 0, 0, 28), ("grey29", 0, 0, 29),
  ("grey3", 0, 0, 3), ("grey30", 0, 0, 30), ("grey31", 0, 0, 31), ("grey32", 0, 0, 32),
  ("grey33", 0, 0, 33), ("grey34", 0, 0, 34), ("grey35", 0, 0, 35), ("grey36", 0, 0, 36),
  ("grey37", 0, 0, 37), ("grey38", 0, 0, 38), ("grey39", 0, 0, 39), ("grey4", 0, 0, 4),
  ("grey40", 0, 0, 40), ("grey41", 0, 0, 41), ("grey42", 0, 0, 42), ("grey43", 0, 0, 43),
  ("grey44", 0, 0, 44), ("grey45", 0, 0, 45), ("grey46", 0, 0, 46), ("grey47", 0, 0, 47),
  ("grey48", 0, 0, 48), ("grey49", 0, 0, 49), ("grey5", 0, 0, 5), ("grey50", 0, 0, 50),
  ("grey51", 0, 0, 51), ("grey52", 0, 0, 52), ("grey53", 0, 0, 53), ("grey54", 0, 0, 54),
  ("grey55", 0, 0, 55), ("grey56", 0, 0, 56), ("grey57", 0, 0, 57), ("grey58", 0, 0, 58),
  ("grey59", 0, 0, 59), ("grey6", 0, 0, 6), ("grey60", 0, 0, 60), ("grey61", 0, 0, 61),
  ("grey62", 0, 0, 62), ("grey63", 0, 0, 63), ("grey64", 0, 0, 64), ("grey65", 0, 0, 65),
  ("grey66", 0, 0, 66), ("grey67", 0, 0, 67), ("grey68", 0, 0, 68), ("grey69", 0, 0, 69),
  ("grey7", 0, 0, 7), ("grey70", 0, 0, 70), ("grey71", 0, 0, 71), ("grey72", 0, 0, 72),
  ("grey73", 0, 0, 73), ("grey74", 0, 0, 74), ("grey75", 0, 0, 75), ("grey76", 0, 0, 76),
  ("grey77", 0, 0, 77), ("grey78", 0, 0, 78), ("grey79", 0, 0, 79), ("grey8", 0, 0, 8),
  ("grey80", 0, 0, 80), ("grey81", 0, 0, 81), ("grey82", 0, 0, 82), ("grey83", 0, 0, 83),
  ("grey84", 0, 0, 84), ("grey85", 0, 0, 85), ("grey86", 0, 0, 86), ("grey87", 0, 0, 87),
  ("grey88", 0, 0, 88), ("grey89", 0, 0, 89), ("grey9", 0, 0, 9), ("grey90", 0, 0, 90),
  ("grey91", 0, 0, 91), ("grey92", 0, 0, 92), ("grey93", 0, 0, 93), ("grey94", 0, 0, 94),
  ("grey95", 0, 0, 95), ("grey96", 0, 0, 96), ("grey97", 0, 0, 97), ("grey98", 0, 0, 98),
  ("grey99", 0, 0, 99), ("honeydew", 120, 100, 97), ("honeydew1", 120, 100, 97), ("honeydew2", 120, 29, 91),
  ("honeydew3", 120, 11, 78), ("honeydew4", 120, 3, 53), ("hotpink", 330, 100, 71), ("hotpink1", 331, 100, 72),
  ("hotpink2", 332, 80, 67), ("hotpink3", 334, 52, 59), ("hotpink4", 330, 41, 39), ("indianred", 0, 53, 58),
  ("indianred1", 0, 100, 71), ("indianred2", 0, 80, 66), ("indianred3", 0, 55, 57), ("indianred4", 0, 41, 39),
  ("indigo", 275, 100, 25), ("ivory", 60, 100, 97), ("ivory1", 60, 100, 97), ("ivory2", 60, 29, 91),
  ("ivory3", 60, 11, 78), ("ivory4", 60, 3, 53), ("khaki", 54, 77, 75), ("khaki1", 55, 100, 78),
  ("khaki2", 55, 76, 73), ("khaki3", 55, 47, 63), ("khaki4", 55, 28, 43), ("lavender", 240, 67, 94),
  ("lavenderblush", 340, 100, 97), ("lavenderblush1", 340, 100, 97), ("lavenderblush2", 339, 29, 91), ("lavenderblush3", 340, 11, 78),
  ("lavenderblush4", 337, 3, 53), ("lawngreen", 90, 100, 49), ("lemonchiffon", 54, 100, 90), ("lemonchiffon1", 54, 100, 90),
  ("lemonchiffon2", 54, 58, 84), ("lemonchiffon3", 54, 29, 73), ("lemonchiffon4", 56, 11, 49), ("lightblue", 195, 53, 79),
  ("lightcoral", 0, 79, 72), ("lightcyan", 180, 100, 94), ("lightgoldenrod", 51, 76, 72), ("lightgoldenrodyellow", 60, 80, 90),
  ("lightgray", 0, 0, 83), ("lightgreen", 120, 73, 75), ("lightgrey", 0, 0, 83), ("lightpink", 351, 100, 86),
  ("lightsalmon", 17, 100, 74), ("lightseagreen", 177, 70, 41), ("lightskyblue", 203, 92, 75), ("lightslateblue", 248, 100, 72),
  ("lightslategray", 210, 14, 53), ("lightslategrey", 210, 14, 53), ("lightsteelblue", 214, 41, 78), ("lightyellow", 60, 100, 94),
  ("lightblue1", 195, 100, 87), ("lightblue2", 195, 64, 82), ("lightblue3", 195, 34, 70), ("lightblue4", 194, 14, 48),
  ("lightcoral", 180, 100, 94), ("lightcyan1", 180, 100, 94), ("lightcyan2", 180, 46, 88), ("lightcyan3", 180, 20, 75),
  ("lightcyan4", 180, 7, 51), ("lightgoldenrod1", 50, 100, 77), ("lightgoldenrod2", 50, 76, 72), ("lightgoldenrod3", 50, 48, 62),
  ("lightgoldenrod4", 50, 29, 42), ("lightgoldenrodyellow", 351, 100, 86), ("lightpink1", 352, 100, 84), ("lightpink2", 351, 69, 78),
  ("lightpink3", 352, 39, 68), ("lightpink4", 352, 19, 46), ("lightsalmon1", 17, 100, 74), ("lightsalmon2", 17, 78, 69),
  ("lightsalmon3", 17, 52, 59), ("lightsalmon4", 17, 36, 40), ("lightseagreen", 203, 92, 75), ("lightskyblue1", 202, 100, 85),
  ("lightskyblue2", 202, 69, 79), ("lightskyblue3", 202, 39, 68), ("lightskyblue4", 202, 18, 46), ("lightslateblue", 214, 41, 78),
  ("lightsteelblue1", 214, 100, 90), ("lightsteelblue2", 214, 60, 84), ("lightsteelblue3", 213, 30, 72), ("lightsteelblue4", 213, 12, 49),
  ("lightyellow1", 60, 100, 94), ("lightyellow2", 60, 46, 88), ("lightyellow3", 60, 20, 75), ("lightyellow4", 60, 7, 51),
  ("lime", 120, 100, 50), ("limegreen", 120, 61, 50), ("linen", 30, 67, 94), ("magenta", 300, 100, 50),
  ("magenta1", 300, 100, 50), ("magenta2", 300, 100, 47), ("magenta3", 300, 100, 40), ("magenta4", 300, 100, 27),
  ("maroon", 338, 57, 44), ("maroon1", 322, 100, 60), ("maroon2", 322, 85, 56), ("maroon3", 322, 67, 48),
  ("maroon4", 322, 66, 33), ("mediumaquamarine", 160, 51, 60), ("mediumblue", 240, 100, 40), ("mediumorchid", 288, 59, 58),
  ("mediumpurple", 260, 60, 65), ("mediumseagreen", 147, 50, 47), ("mediumslateblue", 249, 80, 67), ("mediumspringgreen", 157, 100, 49),
  ("mediumturquoise", 178, 60, 55), ("mediumvioletred", 322, 81, 43), ("mediumaquamarine", 288, 59, 58), ("mediumorchid1", 288, 100, 70),
  ("mediumorchid2", 288, 81, 65), ("mediumorchid3", 288, 55, 56), ("mediumorchid4", 288, 43, 38), ("mediumpurple1", 260, 100, 75),
  ("mediumpurple2", 259, 77, 70), ("mediumpurple3", 260, 50, 61), ("mediumpurple4", 259, 32, 41), ("mediumseagreen", 322, 81, 43),
  ("midnightblue", 240, 64, 27), ("mintcream", 150, 100, 98), ("mistyrose", 6, 100, 94), ("mistyrose1", 6, 100, 94),
  ("mistyrose2", 6, 45, 88), ("mistyrose3", 5, 19, 76), ("mistyrose4", 7, 6, 51), ("moccasin", 38, 100, 85),
  ("navajowhite", 36, 100, 84), ("navajowhite1", 36, 100, 84), ("navajowhite2", 36, 69, 78), ("navajowhite3", 36, 40, 67),
  ("navajowhite4", 36, 19, 46), ("navy", 240, 100, 25), ("navyblue", 240, 100, 25), ("oldlace", 39, 85, 95),
  ("olive", 60, 100, 25), ("olivedrab", 80, 60, 35), ("olivedrab1", 80, 100, 62), ("olivedrab2", 80, 84, 58),
  ("olivedrab3", 80, 61, 50), ("olivedrab4", 79, 61, 34), ("orange", 39, 100, 50), ("orangered", 16, 100, 50),
  ("orange1", 39, 100, 50), ("orange2", 39, 100, 47), ("orange3", 39, 100, 40), ("orange4", 39, 100, 27),
  ("orangered1", 16, 100, 50), ("orangered2", 16, 100, 47), ("orangered3", 16, 100, 40), ("orangered4", 16, 100, 27),
  ("orchid", 302, 59, 65), ("orchid1", 302, 100, 76), ("orchid2", 303, 77, 71), ("orchid3", 302, 50, 61),
  ("orchid4", 302, 32, 41), ("palegoldenrod", 55, 67, 80), ("palegreen", 120, 93, 79), ("paleturquoise", 180, 65, 81),
  ("palevioletred", 340, 60, 65), ("palegoldenrod", 120, 93, 79), ("palegreen1", 120, 100, 80), ("palegreen2", 120, 73, 75),
  ("palegreen3", 120, 45, 65), ("palegreen4", 120, 25, 44), ("paleturquoise1", 180, 100, 87), ("paleturquoise2", 180, 65, 81),
  ("paleturquoise3", 180, 35, 70), ("paleturquoise4", 180, 15, 47), ("palevioletred1", 340, 100, 75), ("palevioletred2", 341, 77, 70),
  ("palevioletred3", 340, 50, 61), ("palevioletred4", 341, 32, 41), ("papayawhip", 37, 100, 92), ("peachpuff", 28, 100, 86),
  ("peachpuff1", 28, 100, 86), ("peachpuff2", 28, 66, 81), ("peachpuff3", 28, 36, 69), ("peachpuff4", 28, 16, 47),
  ("peru", 30, 59, 53), ("pink", 350, 100, 88), ("pink1", 347, 100, 85), ("pink2", 347, 67, 80),
  ("pink3", 347, 38, 69), ("pink4", 346, 17, 47), ("plum", 300, 47, 75), ("plum1", 300, 100, 87),
  ("plum2", 300, 65, 81), ("plum3", 300, 35, 70), ("plum4", 300, 15, 47), ("powderblue", 187, 52, 80),
  ("purple", 277, 87, 53), ("purple1", 271, 100, 59), ("purple2", 271, 85, 55), ("purple3", 271, 69, 48),
  ("purple4", 271, 68, 32), ("rebeccapurple", 270, 50, 40), ("red", 0, 100, 50), ("red1", 0, 100, 50),
  ("red2", 0, 100, 47), ("red3", 0, 100, 40), ("red4", 0, 100, 27), ("rosybrown", 0, 25, 65),
  ("rosybrown1", 0, 100, 88), ("rosybrown2", 0, 63, 82), ("rosybrown3", 0, 33, 71), ("rosybrown4", 0, 14, 48),
  ("royalblue", 225, 73, 57), ("royalblue1", 225, 100, 64), ("royalblue2", 225, 83, 60), ("royalblue3", 225, 60, 52),
  ("royalblue4", 225, 56, 35), ("saddlebrown", 25, 76, 31), ("salmon", 6, 93, 71), ("salmon1", 14, 100, 71),
  ("salmon2", 14, 80, 66), ("salmon3", 14, 55, 57), ("salmon4", 14, 42, 38), ("sandybrown", 28, 87, 67),
  ("seagreen", 146, 50, 36), ("seagreen1", 146, 100, 66), ("seagreen2", 146, 82, 62), ("seagreen3", 147, 58, 53),
  ("seagreen4", 146, 50, 36), ("seashell", 25, 100, 97), ("seashell1", 25, 100, 97), ("seashell2", 26, 32, 90),
  ("seashell3", 26, 12, 78), ("seashell4", 27, 4, 53), ("sienna", 19, 56, 40), ("sienna1", 19, 100, 64),
  ("sienna2", 19, 83, 60), ("sienna3", 19, 60, 51), ("sienna4", 20, 57, 35), ("silver", 0, 0, 75),
  ("skyblue", 197, 71, 73), ("skyblue1", 204, 100, 76), ("skyblue2", 205, 77, 71), ("skyblue3", 204, 49, 61),
  ("skyblue4", 205, 31, 42), ("slateblue", 248, 53, 58), ("slategray", 210, 13, 50), ("slategrey", 210, 13, 50),
  ("slateblue1", 248, 100, 72), ("slateblue2", 248, 80, 67), ("slateblue3", 248, 54, 58), ("slateblue4", 248, 40, 39),
  ("slategray1", 211, 100, 89), ("slategray2", 211, 61, 83), ("slategray3", 210, 32, 71), ("slategray4", 211, 13, 48),
  ("snow", 0, 100, 99), ("snow1", 0, 100, 99), ("snow2", 0, 13, 92), ("snow3", 0, 4, 80),
  ("snow4", 0, 1, 54), ("springgreen", 150, 100, 50), ("springgreen1", 150, 100, 50), ("springgreen2", 150, 100, 47),
  ("springgreen3", 150, 100, 40), ("springgreen4", 150, 100, 27), ("steelblue", 207, 44, 49), ("steelblue1", 207, 100, 69),
  ("steelblue2", 207, 81, 65), ("steelblue3", 207, 56, 56), ("steelblue4", 208, 44, 38), ("tan", 34, 44, 69),
  ("tan1", 29, 100, 65), ("tan2", 29, 83, 61), ("tan3", 30, 59, 53), ("tan4", 29, 53, 36),
  ("teal", 180, 100, 25), ("thistle", 300, 24, 80), ("thistle1", 300, 100, 94), ("thistle2", 300, 45, 88),
  ("thistle3", 300, 19, 76), ("thistle4", 300, 6, 51), ("tomato", 9, 100, 64), ("tomato1", 9, 100, 64),
  ("tomato2", 9, 83, 60), ("tomato3", 9, 60, 51), ("tomato4", 10, 57, 35), ("turquoise", 174, 72, 56),
  ("turquoise1", 182, 100, 50), ("turquoise2", 182, 100, 47), ("turquoise3", 182, 100, 40), ("turquoise4", 182, 100, 27),
  ("violet", 300, 76, 72), ("violetred", 322, 73, 47), ("violetred1", 333, 100, 62), ("violetred2", 333, 84, 58),
  ("violetred3", 333, 61, 50), ("violetred4", 333, 61, 34), ("webgray", 0, 0, 50), ("webgreen", 120, 100, 25),
  ("webgrey", 0, 0, 50), ("webmaroon", 0, 100, 25), ("webpurple", 300, 100, 25), ("webgray", 300, 100, 25),
  ("wheat", 39, 77, 83), ("wheat1", 39, 100, 86), ("wheat2", 39, 65, 81), ("wheat3", 39, 35, 70),
  ("wheat4", 39, 15, 47), ("white", 0, 0, 100), ("whitesmoke", 0, 0, 96), ("x11gray", 0, 0, 75),
  ("x11green", 120, 100, 50), ("x11grey", 0, 0, 75), ("x11maroon", 338, 57, 44), ("x11purple", 277, 87, 53),
  ("x11gray", 277, 87, 53), ("yellow", 60, 100, 50), ("yellowgreen", 80, 61, 50), ("yellow1", 60, 100, 50),
  ("yellow2", 60, 100, 47), ("yellow3", 60, 100, 40), ("yellow4", 60, 100, 27)]

/-- X11colordict.py 697-1390 `getX11colorname2RGBdict` -/
def x11RGB : List (String × Nat) := [
  ("aliceblue", 15792383), ("antiquewhite", 15792383), ("antiquewhite", 16444375), ("antiquewhite1", 16444375), ("antiquewhite2", 16773083), ("antiquewhite3", 15654860),
  ("antiquewhite4", 13484208), ("aqua", 65535), ("aquamarine", 65535), ("aquamarine1", 8388564), ("aquamarine2", 8388564), ("aquamarine3", 7794374),
  ("aquamarine4", 6737322), ("azure", 4557684), ("azure1", 15794175), ("azure2", 15794175), ("azure3", 14741230), ("azure4", 12701133),
  ("beige", 8620939), ("bisque", 16119260), ("bisque1", 16770244), ("bisque2", 16770244), ("bisque3", 15652279), ("bisque4", 13481886),
  ("black", 0), ("blanchedalmond", 16772045), ("blue", 255), ("blueviolet", 9055202), ("blue1", 255), ("blue2", 238),
  ("blue3", 205), ("blue4", 139), ("brown", 10824234), ("brown1", 16728128), ("brown2", 15612731), ("brown3", 13447987),
  ("brown4", 9118499), ("burlywood", 14596231), ("burlywood1", 16765851), ("burlywood2", 15648145), ("burlywood3", 13478525), ("burlywood4", 9139029),
  ("cadetblue", 6266528), ("cadetblue1", 10024447), ("cadetblue2", 9364974), ("cadetblue3", 8046029), ("cadetblue4", 5473931), ("chartreuse", 8388352),
  ("chartreuse1", 8388352), ("chartreuse2", 7794176), ("chartreuse3", 6737152), ("chartreuse4", 4557568), ("chocolate", 13789470), ("chocolate1", 16744228),
  ("chocolate2", 15627809), ("chocolate3", 13461021), ("chocolate4", 9127187), ("coral", 16744272), ("coral1", 16740950), ("coral2", 15624784),
  ("coral3", 13458245), ("coral4", 9125423), ("cornflowerblue", 6591981), ("cornsilk", 16775388), ("cornsilk1", 16775388), ("cornsilk2", 15657165),
  ("cornsilk3", 13486257), ("cornsilk4", 9144440), ("crimson", 14423100), ("cyan", 65535), ("cyan1", 65535), ("cyan2", 61166),
  ("cyan3", 52685), ("cyan4", 35723), ("darkblue", 139), ("darkcyan", 35723), ("darkgoldenrod", 12092939), ("darkgray", 11119017),
  ("darkgreen", 25600), ("darkgrey", 11119017), ("darkkhaki", 12433259), ("darkmagenta", 9109643), ("darkolivegreen", 5597999), ("darkorange", 16747520),
  ("darkorchid", 10040012), ("darkred", 9109504), ("darksalmon", 15308410), ("darkseagreen", 9419919), ("darkslateblue", 4734347), ("darkslategray", 3100495),
  ("darkslategrey", 3100495), ("darkturquoise", 52945), ("darkviolet", 9699539), ("darkblue", 139), ("darkgoldenrod1", 16759055), ("darkgoldenrod2", 15641870),
  ("darkgoldenrod3", 13473036), ("darkgoldenrod4", 9135368), ("darkgray", 5597999), ("darkolivegreen1", 13303664), ("darkolivegreen2", 12381800), ("darkolivegreen3", 10669402),
  ("darkolivegreen4", 7244605), ("darkorange1", 16744192), ("darkorange2", 15627776), ("darkorange3", 13460992), ("darkorange4", 9127168), ("darkorchid1", 12533503),
  ("darkorchid2", 11680494), ("darkorchid3", 10105549), ("darkorchid4", 6824587), ("darkred", 9419919), ("darkseagreen1", 12713921), ("darkseagreen2", 11857588),
  ("darkseagreen3", 10210715), ("darkseagreen4", 6916969), ("darkslateblue", 3100495), ("darkslategray1", 9961471), ("darkslategray2", 9301742), ("darkslategray3", 7982541),
  ("darkslategray4", 5409675), ("darkslategrey", 9699539), ("deeppink", 16716947), ("deepskyblue", 49151), ("deeppink1", 16716947), ("deeppink2", 15602313),
  ("deeppink3", 13439094), ("deeppink4", 9112144), ("deepskyblue1", 49151), ("deepskyblue2", 45806), ("deepskyblue3", 39629), ("deepskyblue4", 26763),
  ("dimgray", 6908265), ("dimgrey", 6908265), ("dodgerblue", 2003199), ("dodgerblue1", 2003199), ("dodgerblue2", 1869550), ("dodgerblue3", 1602765),
  ("dodgerblue4", 1068683), ("firebrick", 11674146), ("firebrick1", 16724016), ("firebrick2", 15608876), ("firebrick3", 13444646), ("firebrick4", 9116186),
  ("floralwhite", 16775920), ("forestgreen", 2263842), ("fuchsia", 16711935), ("gainsboro", 14474460), ("ghostwhite", 16316671), ("gold", 16766720),
  ("gold1", 16766720), ("gold2", 15649024), ("gold3", 13479168), ("gold4", 9139456), ("goldenrod", 14329120), ("goldenrod1", 16761125),
  ("goldenrod2", 15643682), ("goldenrod3", 13474589), ("goldenrod4", 9136404), ("gray", 12500670), ("gray0", 0), ("gray1", 197379),
  ("gray10", 1710618), ("gray100", 16777215), ("gray11", 1842204), ("gray12", 2039583), ("gray13", 2171169), ("gray14", 2368548),
  ("gray15", 2500134), ("gray16", 2697513), ("gray17", 2829099), ("gray18", 3026478), ("gray19", 3158064), ("gray2", 328965),
  ("gray20", 3355443), ("gray21", 3552822), ("gray22", 3684408), ("gray23", 3881787), ("gray24", 4013373), ("gray25", 4210752),
  ("gray26", 4342338), ("gray27", 4539717), ("gray28", 4671303), ("gray29", 4868682), ("gray3", 526344), ("gray30", 5066061),
  ("gray31", 5197647), ("gray32", 5395026), ("gray33", 5526612), ("gray34", 5723991), ("gray35", 5855577), ("gray36", 6052956),
  ("gray37", 6184542), ("gray38", 6381921), ("gray39", 6513507), ("gray4", 657930), ("gray40", 6710886), ("gray41", 6908265),
  ("gray42", 7039851), ("gray43", 7237230), ("gray44", 7368816), ("gray45", 7566195), ("gray46", 7697781), ("gray47", 7895160),
  ("gray48", 8026746), ("gray49", 8224125), ("gray5", 855309), ("gray50", 8355711), ("gray51", 8553090), ("gray52", 8750469),
  ("gray53", 8882055), ("gray54", 9079434), ("gray55", 9211020), ("gray56", 9408399), ("gray57", 9539985), ("gray58", 9737364),
  ("gray59", 9868950), ("gray6", 986895), ("gray60", 10066329), ("gray61", 10263708), ("gray62", 10395294), ("gray63", 10592673),
  ("gray64", 10724259), ("gray65", 10921638), ("gray66", 11053224), ("gray67", 11250603), ("gray68", 11382189), ("gray69", 11579568),
  ("gray7", 1184274), ("gray70", 11776947), ("gray71", 11908533), ("gray72", 12105912), ("gray73", 12237498), ("gray74", 12434877),
  ("gray75", 12566463), ("gray76", 12763842), ("gray77", 12895428), ("gray78", 13092807), ("gray79", 13224393), ("gray8", 1315860),
  ("gray80", 13421772), ("gray81", 13619151), ("gray82", 13750737), ("gray83", 13948116), ("gray84", 14079702), ("gray85", 14277081),
  ("gray86", 14408667), ("gray87", 14606046), ("gray88", 14737632), ("gray89", 14935011), ("gray9", 1513239), ("gray90", 15066597),
  ("gray91", 15263976), ("gray92", 15461355), ("gray93", 15592941), ("gray94", 15790320), ("gray95", 15921906), ("gray96", 16119285),
  ("gray97", 16250871), ("gray98", 16448250), ("gray99", 16579836), ("green", 65280), ("greenyellow", 11403055), ("green1", 65280),
  ("green2", 60928), ("green3", 52480), ("green4", 35584), ("grey", 12500670), ("grey0", 0), ("grey1", 197379),
  ("grey10", 1710618), ("grey100", 16777215), ("grey11", 1842204), ("grey12", 2039583), ("grey13", 2171169), ("grey14", 2368548),
  ("grey15", 2500134), ("grey16", 2697513), ("grey17", 2829099), ("grey18", 3026478), ("grey19", 3158064), ("grey2", 328965),
  ("grey20", 3355443), ("grey21", 3552822), ("grey22", 3684408), ("grey23", 3881787), ("grey24", 4013373), ("grey25", 4210752),
  ("grey26", 4342338), ("grey27", 4539717), ("grey28", 4671303), ("grey29", 4868682), ("grey3", 526344), ("grey30", 5066061),
  ("grey31", 5197647), ("grey32", 5395026), ("grey33", 5526612), ("grey34", 5723991), ("grey35", 5855577), ("grey36", 6052956),
  ("grey37", 6184542), ("grey38", 6381921), ("grey39", 6513507), ("grey4", 657930), ("grey40", 6710886), ("grey41", 6908265),
  ("grey42", 7039851), ("grey43", 7237230), ("grey44", 7368816), ("grey45", 7566195), ("grey46", 7697781), ("grey47", 7895160),
  ("grey48", 8026746), ("grey49", 8224125), ("grey5", 855309), ("grey50", 8355711), ("grey51", 8553090), ("grey52", 8750469),
  ("grey53", 8882055), ("grey54", 9079434), ("grey55", 9211020), ("grey56", 9408399), ("grey57", 9539985), ("grey58", 9737364),
  ("grey59", 9868950), ("grey6", 986895), ("grey60", 10066329), ("grey61", 10263708), ("grey62", 10395294), ("grey63", 10592673),
  ("grey64", 10724259), ("grey65", 10921638), ("grey66", 11053224), ("grey67", 11250603), ("grey68", 11382189), ("grey69", 11579568),
  ("grey7", 1184274), ("grey70", 11776947), ("grey71", 11908533), ("grey72", 12105912), ("grey73", 12237498), ("grey74", 12434877),
  ("grey75", 12566463), ("grey76", 12763842), ("grey77", 12895428), ("grey78", 13092807), ("grey79", 13224393), ("grey8", 1315860),
  ("grey80", 13421772), ("grey81", 13619151), ("grey82", 13750737), ("grey83", 13948116), ("grey84", 14079702), ("grey85", 14277081),
  ("grey86", 14408667), ("grey87", 14606046), ("grey88", 14737632), ("grey89", 14935011), ("grey9", 1513239), ("grey90", 15066597),
  ("grey91", 15263976), ("grey92", 15461355), ("grey93", 15592941), ("grey94", 15790320), ("grey95", 15921906), ("grey96", 16119285),
  ("grey97", 16250871), ("grey98", 16448250), ("grey99", 16579836), ("honeydew", 15794160), ("honeydew1", 15794160), ("honeydew2", 14741216),
  ("honeydew3", 12701121), ("honeydew4", 8620931), ("hotpink", 16738740), ("hotpink1", 16740020), ("hotpink2", 15624871), ("hotpink3", 13459600),
  ("hotpink4", 9124450), ("indianred", 13458524), ("indianred1", 16738922), ("indianred2", 15623011), ("indianred3", 13456725), ("indianred4", 9124410),
  ("indigo", 4915330), ("ivory", 16777200), ("ivory1", 16777200), ("ivory2", 15658720), ("ivory3", 13487553), ("ivory4", 9145219),
  ("khaki", 15787660), ("khaki1", 16774799), ("khaki2", 15656581), ("khaki3", 13485683), ("khaki4", 9143886), ("lavender", 15132410),
  ("lavenderblush", 16773365), ("lavenderblush1", 16773365), ("lavenderblush2", 15655141), ("lavenderblush3", 13484485), ("lavenderblush4", 9143174), ("lawngreen", 8190976),
  ("lemonchiffon", 16775885), ("lemonchiffon1", 16775885), ("lemonchiffon2", 15657407), ("lemonchiffon3", 13486501), ("lemonchiffon4", 9144688), ("lightblue", 11393254),
  ("lightcoral", 15761536), ("lightcyan", 14745599), ("lightgoldenrod", 15654274), ("lightgoldenrodyellow", 16448210), ("lightgray", 13882323), ("lightgreen", 9498256),
  ("lightgrey", 13882323), ("lightpink", 16758465), ("lightsalmon", 16752762), ("lightseagreen", 2142890), ("lightskyblue", 8900346), ("lightslateblue", 8679679),
  ("lightslategray", 7833753), ("lightslategrey", 7833753), ("lightsteelblue", 11584734), ("lightyellow", 16777184), ("lightblue1", 12578815), ("lightblue2", 11722734),
  ("lightblue3", 10141901), ("lightblue4", 6849419), ("lightcoral", 14745599), ("lightcyan1", 14745599), ("lightcyan2", 13758190), ("lightcyan3", 11849165),
  ("lightcyan4", 8031115), ("lightgoldenrod1", 16772235), ("lightgoldenrod2", 15654018), ("lightgoldenrod3", 13483632), ("lightgoldenrod4", 9142604), ("lightgoldenrodyellow", 16758465),
  ("lightpink1", 16756409), ("lightpink2", 15639213), ("lightpink3", 13470869), ("lightpink4", 9133925), ("lightsalmon1", 16752762), ("lightsalmon2", 15635826),
  ("lightsalmon3", 13468002), ("lightsalmon4", 9131842), ("lightseagreen", 8900346), ("lightskyblue1", 11592447), ("lightskyblue2", 10802158), ("lightskyblue3", 9287373),
  ("lightskyblue4", 6323083), ("lightslateblue", 11584734), ("lightsteelblue1", 13296127), ("lightsteelblue2", 12374766), ("lightsteelblue3", 10663373), ("lightsteelblue4", 7240587),
  ("lightyellow1", 16777184), ("lightyellow2", 15658705), ("lightyellow3", 13487540), ("lightyellow4", 9145210), ("lime", 65280), ("limegreen", 3329330),
  ("linen", 16445670), ("magenta", 16711935), ("magenta1", 16711935), ("magenta2", 15597806), ("magenta3", 13435085), ("magenta4", 9109643),
  ("maroon", 11546720), ("maroon1", 16725171), ("maroon2", 15610023), ("maroon3", 13445520), ("maroon4", 9116770), ("mediumaquamarine", 6737322),
  ("mediumblue", 205), ("mediumorchid", 12211667), ("mediumpurple", 9662683), ("mediumseagreen", 3978097), ("mediumslateblue", 8087790), ("mediumspringgreen", 64154),
  ("mediumturquoise", 4772300), ("mediumvioletred", 13047173), ("mediumaquamarine", 12211667), ("mediumorchid1", 14706431), ("mediumorchid2", 13721582), ("mediumorchid3", 11817677),
  ("mediumorchid4", 8009611), ("mediumpurple1", 11240191), ("mediumpurple2", 10451438), ("mediumpurple3", 9005261), ("mediumpurple4", 6113163), ("mediumseagreen", 13047173),
  ("midnightblue", 1644912), ("mintcream", 16121850), ("mistyrose", 16770273), ("mistyrose1", 16770273), ("mistyrose2", 15652306), ("mistyrose3", 13481909),
  ("mistyrose4", 9141627), ("moccasin", 16770229), ("navajowhite", 16768685), ("navajowhite1", 16768685), ("navajowhite2", 15650721), ("navajowhite3", 13480843),
  ("navajowhite4", 9140574), ("navy", 128), ("navyblue", 128), ("oldlace", 16643558), ("olive", 8421376), ("olivedrab", 7048739),
  ("olivedrab1", 12648254), ("olivedrab2", 11791930), ("olivedrab3", 10145074), ("olivedrab4", 6916898), ("orange", 16753920), ("orangered", 16729344),
  ("orange1", 16753920), ("orange2", 15636992), ("orange3", 13468928), ("orange4", 9132544), ("orangered1", 16729344), ("orangered2", 15613952),
  ("orangered3", 13448960), ("orangered4", 9118976), ("orchid", 14315734), ("orchid1", 16745466), ("orchid2", 15629033), ("orchid3", 13461961),
  ("orchid4", 9127817), ("palegoldenrod", 15657130), ("palegreen", 10025880), ("paleturquoise", 11529966), ("palevioletred", 14381203), ("palegoldenrod", 10025880),
  ("palegreen1", 10157978), ("palegreen2", 9498256), ("palegreen3", 8179068), ("palegreen4", 5540692), ("paleturquoise1", 12320767), ("paleturquoise2", 11464430),
  ("paleturquoise3", 9883085), ("paleturquoise4", 6720395), ("palevioletred1", 16745131), ("palevioletred2", 15628703), ("palevioletred3", 13461641), ("palevioletred4", 9127773),
  ("papayawhip", 16773077), ("peachpuff", 16767673), ("peachpuff1", 16767673), ("peachpuff2", 15649709), ("peachpuff3", 13479829), ("peachpuff4", 9140069),
  ("peru", 13468991), ("pink", 16761035), ("pink1", 16758213), ("pink2", 15641016), ("pink3", 13472158), ("pink4", 9134956),
  ("plum", 14524637), ("plum1", 16759807), ("plum2", 15642350), ("plum3", 13473485), ("plum4", 9135755), ("powderblue", 11591910),
  ("purple", 10494192), ("purple1", 10170623), ("purple2", 9514222), ("purple3", 8201933), ("purple4", 5577355), ("rebeccapurple", 6697881),
  ("red", 16711680), ("red1", 16711680), ("red2", 15597568), ("red3", 13434880), ("red4", 9109504), ("rosybrown", 12357519),
  ("rosybrown1", 16761281), ("rosybrown2", 15643828), ("rosybrown3", 13474715), ("rosybrown4", 9136489), ("royalblue", 4286945), ("royalblue1", 4749055),
  ("royalblue2", 4419310), ("royalblue3", 3825613), ("royalblue4", 2572427), ("saddlebrown", 9127187), ("salmon", 16416882), ("salmon1", 16747625),
  ("salmon2", 15630946), ("salmon3", 13463636), ("salmon4", 9129017), ("sandybrown", 16032864), ("seagreen", 3050327), ("seagreen1", 5570463),
  ("seagreen2", 5172884), ("seagreen3", 4443520), ("seagreen4", 3050327), ("seashell", 16774638), ("seashell1", 16774638), ("seashell2", 15656414),
  ("seashell3", 13485503), ("seashell4", 9143938), ("sienna", 10506797), ("sienna1", 16745031), ("sienna2", 15628610), ("sienna3", 13461561),
  ("sienna4", 9127718), ("silver", 12632256), ("skyblue", 8900331), ("skyblue1", 8900351), ("skyblue2", 8306926), ("skyblue3", 7120589),
  ("skyblue4", 4878475), ("slateblue", 6970061), ("slategray", 7372944), ("slategrey", 7372944), ("slateblue1", 8613887), ("slateblue2", 8021998),
  ("slateblue3", 6904269), ("slateblue4", 4668555), ("slategray1", 13034239), ("slategray2", 12178414), ("slategray3", 10467021), ("slategray4", 7109515),
  ("snow", 16775930), ("snow1", 16775930), ("snow2", 15657449), ("snow3", 13486537), ("snow4", 9144713), ("springgreen", 65407),
  ("springgreen1", 65407), ("springgreen2", 61046), ("springgreen3", 52582), ("springgreen4", 35653), ("steelblue", 4620980), ("steelblue1", 6535423),
  ("steelblue2", 6073582), ("steelblue3", 5215437), ("steelblue4", 3564683), ("tan", 13808780), ("tan1", 16753999), ("tan2", 15637065),
  ("tan3", 13468991), ("tan4", 9132587), ("teal", 32896), ("thistle", 14204888), ("thistle1", 16769535), ("thistle2", 15651566),
  ("thistle3", 13481421), ("thistle4", 9141131), ("tomato", 16737095), ("tomato1", 16737095), ("tomato2", 15621186), ("tomato3", 13455161),
  ("tomato4", 9123366), ("turquoise", 4251856), ("turquoise1", 62975), ("turquoise2", 58862), ("turquoise3", 50637), ("turquoise4", 34443),
  ("violet", 15631086), ("violetred", 13639824), ("violetred1", 16727702), ("violetred2", 15612556), ("violetred3", 13447800), ("violetred4", 9118290),
  ("webgray", 8421504), ("webgreen", 32768), ("webgrey", 8421504), ("webmaroon", 8388608), ("webpurple", 8388736), ("webgray", 8388736),
  ("wheat", 16113331), ("wheat1", 16771002), ("wheat2", 15653038), ("wheat3", 13482646), ("wheat4", 9141862), ("white", 16777215),
  ("whitesmoke", 16119285), ("x11gray", 12500670), ("x11green", 65280), ("x11grey", 12500670), ("x11maroon", 11546720), ("x11purple", 10494192),
  ("x11gray", 10494192), ("yellow", 16776960), ("yellowgreen", 10145074), ("yellow1", 16776960), ("yellow2", 15658496), ("yellow3", 13487360),
  ("yellow4", 9145088)]

/-- X11colordict.py 1392-2085 `getX11RGBfactors`: the decimal numbers as written, times 10 ^ 6 -/
def x11Factors : List (String × Nat × Nat × Nat) := [
  ("aliceblue", 941176, 972549, 1000000), ("antiquewhite", 941176, 972549, 1000000), ("antiquewhite", 980392, 921569, 843137), ("antiquewhite1", 980392, 921569, 843137),
  ("antiquewhite2", 1000000, 937255, 858824), ("antiquewhite3", 933333, 874510, 800000), ("antiquewhite4", 803922, 752941, 690196), ("aqua", 0, 1000000, 1000000),
  ("aquamarine", 0, 1000000, 1000000), ("aquamarine1", 498039, 1000000, 831373), ("aquamarine2", 498039, 1000000, 831373), ("aquamarine3", 462745, 933333, 776471),
  ("aquamarine4", 400000, 803922, 666667), ("azure", 270588, 545098, 454902), ("azure1", 941176, 1000000, 1000000), ("azure2", 941176, 1000000, 1000000),
  ("azure3", 878431, 933333, 933333), ("azure4", 756863, 803922, 803922), ("beige", 513725, 545098, 545098), ("bisque", 960784, 960784, 862745),
  ("bisque1", 1000000, 894118, 768627), ("bisque2", 1000000, 894118, 768627), ("bisque3", 933333, 835294, 717647), ("bisque4", 803922, 717647, 619608),
  ("black", 0, 0, 0), ("blanchedalmond", 1000000, 921569, 803922), ("blue", 0, 0, 1000000), ("blueviolet", 541176, 168627, 886275),
  ("blue1", 0, 0, 1000000), ("blue2", 0, 0, 933333), ("blue3", 0, 0, 803922), ("blue4", 0, 0, 545098),
  ("brown", 647059, 164706, 164706), ("brown1", 1000000, 250980, 250980), ("brown2", 933333, 231373, 231373), ("brown3", 803922, 200000, 200000),
  ("brown4", 545098, 137255, 137255), ("burlywood", 870588, 721569, 529412), ("burlywood1", 1000000, 827451, 607843), ("burlywood2", 933333, 772549, 568627),
  ("burlywood3", 803922, 666667, 490196), ("burlywood4", 545098, 450980, 333333), ("cadetblue", 372549, 619608, 627451), ("cadetblue1", 596078, 960784, 1000000),
  ("cadetblue2", 556863, 898039, 933333), ("cadetblue3", 478431, 772549, 803922), ("cadetblue4", 325490, 525490, 545098), ("chartreuse", 498039, 1000000, 0),
  ("chartreuse1", 498039, 1000000, 0), ("chartreuse2", 462745, 933333, 0), ("chartreuse3", 400000, 803922, 0), ("chartreuse4", 270588, 545098, 0),
  ("chocolate", 823529, 411765, 117647), ("chocolate1", 1000000, 498039, 141176), ("chocolate2", 933333, 462745, 129412), ("chocolate3", 803922, 400000, 113725),
  ("chocolate4", 545098, 270588, 74510), ("coral", 1000000, 498039, 313725), ("coral1", 1000000, 447059, 337255), ("coral2", 933333, 415686, 313725),
  ("coral3", 803922, 356863, 270588), ("coral4", 545098, 243137, 184314), ("cornflowerblue", 392157, 584314, 929412), ("cornsilk", 1000000, 972549, 862745),
  ("cornsilk1", 1000000, 972549, 862745), ("cornsilk2", 933333, 909804, 803922), ("cornsilk3", 803922, 784314, 694118), ("cornsilk4", 545098, 533333, 470588),
  ("crimson", 862745, 78431, 235294), ("cyan", 0, 1000000, 1000000), ("cyan1", 0, 1000000, 1000000), ("cyan2", 0, 933333, 933333),
  ("cyan3", 0, 803922, 803922), ("cyan4", 0, 545098, 545098), ("darkblue", 0, 0, 545098), ("darkcyan", 0, 545098, 545098),
  ("darkgoldenrod", 721569, 525490, 43137), ("darkgray", 662745, 662745, 662745), ("darkgreen", 0, 392157, 0), ("darkgrey", 662745, 662745, 662745),
  ("darkkhaki", 741176, 717647, 419608), ("darkmagenta", 545098, 0, 545098), ("darkolivegreen", 333333, 419608, 184314), ("darkorange", 1000000, 549020, 0),
  ("darkorchid", 600000, 196078, 800000), ("darkred", 545098, 0, 0), ("darksalmon", 913725, 588235, 478431), ("darkseagreen", 560784, 737255, 560784),
  ("darkslateblue", 282353, 239216, 545098), ("darkslategray", 184314, 309804, 309804), ("darkslategrey", 184314, 309804, 309804), ("darkturquoise", 0, 807843, 819608),
  ("darkviolet", 580392, 0, 827451), ("darkblue", 721569, 525490, 43137), ("darkgoldenrod1", 1000000, 725490, 58824), ("darkgoldenrod2", 933333, 678431, 54902),
  ("darkgoldenrod3", 803922, 584314, 47059), ("darkgoldenrod4", 545098, 396078, 31373), ("darkgray", 333333, 419608, 184314), ("darkolivegreen1", 792157, 1000000, 439216),
  ("darkolivegreen2", 737255, 933333, 407843), ("darkolivegreen3", 635294, 803922, 352941), ("darkolivegreen4", 431373, 545098, 239216), ("darkorange1", 1000000, 498039, 0),
  ("darkorange2", 933333, 462745, 0), ("darkorange3", 803922, 400000, 0), ("darkorange4", 545098, 270588, 0), ("darkorchid1", 749020, 243137, 1000000),
  ("darkorchid2", 698039, 227451, 933333), ("darkorchid3", 603922, 196078, 803922), ("darkorchid4", 407843, 133333, 545098), ("darkred", 560784, 737255, 560784),
  ("darkseagreen1", 756863, 1000000, 756863), ("darkseagreen2", 705882, 933333, 705882), ("darkseagreen3", 607843, 803922, 607843), ("darkseagreen4", 411765, 545098, 411765),
  ("darkslateblue", 184314, 309804, 309804), ("darkslategray1", 592157, 1000000, 1000000), ("darkslategray2", 552941, 933333, 933333), ("darkslategray3", 474510, 803922, 803922),
  ("darkslategray4", 321569, 545098, 545098), ("darkslategrey", 580392, 0, 827451), ("deeppink", 1000000, 78431, 576471), ("deepskyblue", 0, 749020, 1000000),
  ("deeppink1", 1000000, 78431, 576471), ("deeppink2", 933333, 70588, 537255), ("deeppink3", 803922, 62745, 462745), ("deeppink4", 545098, 39216, 313725),
  ("deepskyblue1", 0, 749020, 1000000), ("deepskyblue2", 0, 698039, 933333), ("deepskyblue3", 0, 603922, 803922), ("deepskyblue4", 0, 407843, 545098),
  ("dimgray", 411765, 411765, 411765), ("dimgrey", 411765, 411765, 411765), ("dodgerblue", 117647, 564706, 1000000), ("dodgerblue1", 117647, 564706, 1000000),
  ("dodgerblue2", 109804, 525490, 933333), ("dodgerblue3", 94118, 454902, 803922), ("dodgerblue4", 62745, 305882, 545098), ("firebrick", 698039, 133333, 133333),
  ("firebrick1", 1000000, 188235, 188235), ("firebrick2", 933333, 172549, 172549), ("firebrick3", 803922, 149020, 149020), ("firebrick4", 545098, 101961, 101961),
  ("floralwhite", 1000000, 980392, 941176), ("forestgreen", 133333, 545098, 133333), ("fuchsia", 1000000, 0, 1000000), ("gainsboro", 862745, 862745, 862745),
  ("ghostwhite", 972549, 972549, 1000000), ("gold", 1000000, 843137, 0), ("gold1", 1000000, 843137, 0), ("gold2", 933333, 788235, 0),
  ("gold3", 803922, 678431, 0), ("gold4", 545098, 458824, 0), ("goldenrod", 854902, 647059, 125490), ("goldenrod1", 1000000, 756863, 145098),
  ("goldenrod2", 933333, 705882, 133333), ("goldenrod3", 803922, 607843, 113725), ("goldenrod4", 545098, 411765, 78431), ("gray", 745098, 745098, 745098),
  ("gray0", 0, 0, 0), ("gray1", 11765, 11765, 11765), ("gray10", 101961, 101961, 101961), ("gray100", 1000000, 1000000, 1000000),
  ("gray11", 109804, 109804, 109804), ("gray12", 121569, 121569, 121569), ("gray13", 129412, 129412, 129412), ("gray14", 141176, 141176, 141176),
  ("gray15", 149020, 149020, 149020), ("gray16", 160784, 160784, 160784), ("gray17", 168627, 168627, 168627), ("gray18", 180392, 180392, 180392),
  ("gray19", 188235, 188235, 188235), ("gray2", 19608, 19608, 19608), ("gray20", 200000, 200000, 200000), ("gray21", 211765, 211765, 211765),
  ("gray22", 219608, 219608, 219608), ("gray23", 231373, 231373, 231373), ("gray24", 239216, 239216, 239216), ("gray25", 250980, 250980, 250980),
  ("gray26", 258824, 258824, 258824), ("gray27", 270588, 270588, 270588), ("gray28", 278431, 278431, 278431), ("gray29", 290196, 290196, 290196),
  ("gray3", 31373, 31373, 31373), ("gray30", 301961, 301961, 301961), ("gray31", 309804, 309804, 309804), ("gray32", 321569, 321569, 321569),
  ("gray33", 329412, 329412, 329412), ("gray34", 341176, 341176, 341176), ("gray35", 349020, 349020, 349020), ("gray36", 360784, 360784, 360784),
  ("gray37", 368627, 368627, 368627), ("gray38", 380392, 380392, 380392), ("gray39", 388235, 388235, 388235), ("gray4", 39216, 39216, 39216),
  ("gray40", 400000, 400000, 400000), ("gray41", 411765, 411765, 411765), ("gray42", 419608, 419608, 419608), ("gray43", 431373, 431373, 431373),
  ("gray44", 439216, 439216, 439216), ("gray45", 450980, 450980, 450980), ("gray46", 458824, 458824, 458824), ("gray47", 470588, 470588, 470588),
  ("gray48", 478431, 478431, 478431), ("gray49", 490196, 490196, 490196), ("gray5", 50980, 50980, 50980), ("gray50", 498039, 498039, 498039),
  ("gray51", 509804, 509804, 509804), ("gray52", 521569, 521569, 521569), ("gray53", 529412, 529412, 529412), ("gray54", 541176, 541176, 541176),
  ("gray55", 549020, 549020, 549020), ("gray56", 560784, 560784, 560784), ("gray57", 568627, 568627, 568627), ("gray58", 580392, 580392, 580392),
  ("gray59", 588235, 588235, 588235), ("gray6", 58824, 58824, 58824), ("gray60", 600000, 600000, 600000), ("gray61", 611765, 611765, 611765),
  ("gray62", 619608, 619608, 619608), ("gray63", 631373, 631373, 631373), ("gray64", 639216, 639216, 639216), ("gray65", 650980, 650980, 650980),
  ("gray66", 658824, 658824, 658824), ("gray67", 670588, 670588, 670588), ("gray68", 678431, 678431, 678431), ("gray69", 690196, 690196, 690196),
  ("gray7", 70588, 70588, 70588), ("gray70", 701961, 701961, 701961), ("gray71", 709804, 709804, 709804), ("gray72", 721569, 721569, 721569),
  ("gray73", 729412, 729412, 729412), ("gray74", 741176, 741176, 741176), ("gray75", 749020, 749020, 749020), ("gray76", 760784, 760784, 760784),
  ("gray77", 768627, 768627, 768627), ("gray78", 780392, 780392, 780392), ("gray79", 788235, 788235, 788235), ("gray8", 78431, 78431, 78431),
  ("gray80", 800000, 800000, 800000), ("gray81", 811765, 811765, 811765), ("gray82", 819608, 819608, 819608), ("gray83", 831373, 831373, 831373),
  ("gray84", 839216, 839216, 839216), ("gray85", 850980, 850980, 850980), ("gray86", 858824, 858824, 858824), ("gray87", 870588, 870588, 870588),
  ("gray88", 878431, 878431, 878431), ("gray89", 890196, 890196, 890196), ("gray9", 90196, 90196, 90196), ("gray90", 898039, 898039, 898039),
  ("gray91", 909804, 909804, 909804), ("gray92", 921569, 921569, 921569), ("gray93", 929412, 929412, 929412), ("gray94", 941176, 941176, 941176),
  ("gray95", 949020, 949020, 949020), ("gray96", 960784, 960784, 960784), ("gray97", 968627, 968627, 968627), ("gray98", 980392, 980392, 980392),
  ("gray99", 988235, 988235, 988235), ("green", 0, 1000000, 0), ("greenyellow", 678431, 1000000, 184314), ("green1", 0, 1000000, 0),
  ("green2", 0, 933333, 0), ("green3", 0, 803922, 0), ("green4", 0, 545098, 0), ("grey", 745098, 745098, 745098),
  ("grey0", 0, 0, 0), ("grey1", 11765, 11765, 11765), ("grey10", 101961, 101961, 101961), ("grey100", 1000000, 1000000, 1000000),
  ("grey11", 109804, 109804, 109804), ("grey12", 121569, 121569, 121569), ("grey13", 129412, 129412, 129412), ("grey14", 141176, 141176, 141176),
  ("grey15", 149020, 149020, 149020), ("grey16", 160784, 160784, 160784), ("grey17", 168627, 168627, 168627), ("grey18", 180392, 180392, 180392),
  ("grey19", 188235, 188235, 188235), ("grey2", 19608, 19608, 19608), ("grey20", 200000, 200000, 200000), ("grey21", 211765, 211765, 211765),
  ("grey22", 219608, 219608, 219608), ("grey23", 231373, 231373, 231373), ("grey24", 239216, 239216, 239216), ("grey25", 250980, 250980, 250980),
  ("grey26", 258824, 258824, 258824), ("grey27", 270588, 270588, 270588), ("grey28", 278431, 278431, 278431), ("grey29", 290196, 290196, 290196),
  ("grey3", 31373, 31373, 31373), ("grey30", 301961, 301961, 301961), ("grey31", 309804, 309804, 309804), ("grey32", 321569, 321569, 321569),
  ("grey33", 329412, 329412, 329412), ("grey34", 341176, 341176, 341176), ("grey35", 349020, 349020, 349020), ("grey36", 360784, 360784, 360784),
  ("grey37", 368627, 368627, 368627), ("grey38", 380392, 380392, 380392), ("grey39", 388235, 388235, 388235), ("grey4", 39216, 39216, 39216),
  ("grey40", 400000, 400000, 400000), ("grey41", 411765, 411765, 411765), ("grey42", 419608, 419608, 419608), ("grey43", 431373, 431373, 431373),
  ("grey44", 439216, 439216, 439216), ("grey45", 450980, 450980, 450980), ("grey46", 458824, 458824, 458824), ("grey47", 470588, 470588, 470588),
  ("grey48", 478431, 478431, 478431), ("grey49", 490196, 490196, 490196), ("grey5", 50980, 50980, 50980), ("grey50", 498039, 498039, 498039),
  ("grey51", 509804, 509804, 509804), ("grey52", 521569, 521569, 521569), ("grey53", 529412, 529412, 529412), ("grey54", 541176, 541176, 541176),
  ("grey55", 549020, 549020, 549020), ("grey56", 560784, 560784, 560784), ("grey57", 568627, 568627, 568627), ("grey58", 580392, 580392, 580392),
  ("grey59", 588235, 588235, 588235), ("grey6", 58824, 58824, 58824), ("grey60", 600000, 600000, 600000), ("grey61", 611765, 611765, 611765),
  ("grey62", 619608, 619608, 619608), ("grey63", 631373, 631373, 631373), ("grey64", 639216, 639216, 639216), ("grey65", 650980, 650980, 650980),
  ("grey66", 658824, 658824, 658824), ("grey67", 670588, 670588, 670588), ("grey68", 678431, 678431, 678431), ("grey69", 690196, 690196, 690196),
  ("grey7", 70588, 70588, 70588), ("grey70", 701961, 701961, 701961), ("grey71", 709804, 709804, 709804), ("grey72", 721569, 721569, 721569),
  ("grey73", 729412, 729412, 729412), ("grey74", 741176, 741176, 741176), ("grey75", 749020, 749020, 749020), ("grey76", 760784, 760784, 760784),
  ("grey77", 768627, 768627, 768627), ("grey78", 780392, 780392, 780392), ("grey79", 788235, 788235, 788235), ("grey8", 78431, 78431, 78431),
  ("grey80", 800000, 800000, 800000), ("grey81", 811765, 811765, 811765), ("grey82", 819608, 819608, 819608), ("grey83", 831373, 831373, 831373),
  ("grey84", 839216, 839216, 839216), ("grey85", 850980, 850980, 850980), ("grey86", 858824, 858824, 858824), ("grey87", 870588, 870588, 870588),
  ("grey88", 878431, 878431, 878431), ("grey89", 890196, 890196, 890196), ("grey9", 90196, 90196, 90196), ("grey90", 898039, 898039, 898039),
  ("grey91", 909804, 909804, 909804), ("grey92", 921569, 921569, 921569), ("grey93", 929412, 929412, 929412), ("grey94", 941176, 941176, 941176),
  ("grey95", 949020, 949020, 949020), ("grey96", 960784, 960784, 960784), ("grey97", 968627, 968627, 968627), ("grey98", 980392, 980392, 980392),
  ("grey99", 988235, 988235, 988235), ("honeydew", 941176, 1000000, 941176), ("honeydew1", 941176, 1000000, 941176), ("honeydew2", 878431, 933333, 878431),
  ("honeydew3", 756863, 803922, 756863), ("honeydew4", 513725, 545098, 513725), ("hotpink", 1000000, 411765, 705882), ("hotpink1", 1000000, 431373, 705882),
  ("hotpink2", 933333, 415686, 654902), ("hotpink3", 803922, 376471, 564706), ("hotpink4", 545098, 227451, 384314), ("indianred", 803922, 360784, 360784),
  ("indianred1", 1000000, 415686, 415686), ("indianred2", 933333, 388235, 388235), ("indianred3", 803922, 333333, 333333), ("indianred4", 545098, 227451, 227451),
  ("indigo", 294118, 0, 509804), ("ivory", 1000000, 1000000, 941176), ("ivory1", 1000000, 1000000, 941176), ("ivory2", 933333, 933333, 878431),
  ("ivory3", 803922, 803922, 756863), ("ivory4", 545098, 545098, 513725), ("khaki", 941176, 901961, 549020), ("khaki1", 1000000, 964706, 560784),
  ("khaki2", 933333, 901961, 521569), ("khaki3", 803922, 776471, 450980), ("khaki4", 545098, 525490, 305882), ("lavender", 901961, 901961, 980392),
  ("lavenderblush", 1000000, 941176, 960784), ("lavenderblush1", 1000000, 941176, 960784), ("lavenderblush2", 933333, 878431, 898039), ("lavenderblush3", 803922, 756863, 772549),
  ("lavenderblush4", 545098, 513725, 525490), ("lawngreen", 486275, 988235, 0), ("lemonchiffon", 1000000, 980392, 803922), ("lemonchiffon1", 1000000, 980392, 803922),
  ("lemonchiffon2", 933333, 913725, 749020), ("lemonchiffon3", 803922, 788235, 647059), ("lemonchiffon4", 545098, 537255, 439216), ("lightblue", 678431, 847059, 901961),
  ("lightcoral", 941176, 501961, 501961), ("lightcyan", 878431, 1000000, 1000000), ("lightgoldenrod", 933333, 866667, 509804), ("lightgoldenrodyellow", 980392, 980392, 823529),
  ("lightgray", 827451, 827451, 827451), ("lightgreen", 564706, 933333, 564706), ("lightgrey", 827451, 827451, 827451), ("lightpink", 1000000, 713725, 756863),
  ("lightsalmon", 1000000, 627451, 478431), ("lightseagreen", 125490, 698039, 666667), ("lightskyblue", 529412, 807843, 980392), ("lightslateblue", 517647, 439216, 1000000),
  ("lightslategray", 466667, 533333, 600000), ("lightslategrey", 466667, 533333, 600000), ("lightsteelblue", 690196, 768627, 870588), ("lightyellow", 1000000, 1000000, 878431),
  ("lightblue1", 749020, 937255, 1000000), ("lightblue2", 698039, 874510, 933333), ("lightblue3", 603922, 752941, 803922), ("lightblue4", 407843, 513725, 545098),
  ("lightcoral", 878431, 1000000, 1000000), ("lightcyan1", 878431, 1000000, 1000000), ("lightcyan2", 819608, 933333, 933333), ("lightcyan3", 705882, 803922, 803922),
  ("lightcyan4", 478431, 545098, 545098), ("lightgoldenrod1", 1000000, 925490, 545098), ("lightgoldenrod2", 933333, 862745, 509804), ("lightgoldenrod3", 803922, 745098, 439216),
  ("lightgoldenrod4", 545098, 505882, 298039), ("lightgoldenrodyellow", 1000000, 713725, 756863), ("lightpink1", 1000000, 682353, 725490), ("lightpink2", 933333, 635294, 678431),
  ("lightpink3", 803922, 549020, 584314), ("lightpink4", 545098, 372549, 396078), ("lightsalmon1", 1000000, 627451, 478431), ("lightsalmon2", 933333, 584314, 447059),
  ("lightsalmon3", 803922, 505882, 384314), ("lightsalmon4", 545098, 341176, 258824), ("lightseagreen", 529412, 807843, 980392), ("lightskyblue1", 690196, 886275, 1000000),
  ("lightskyblue2", 643137, 827451, 933333), ("lightskyblue3", 552941, 713725, 803922), ("lightskyblue4", 376471, 482353, 545098), ("lightslateblue", 690196, 768627, 870588),
  ("lightsteelblue1", 792157, 882353, 1000000), ("lightsteelblue2", 737255, 823529, 933333), ("lightsteelblue3", 635294, 709804, 803922), ("lightsteelblue4", 431373, 482353, 545098),
  ("lightyellow1", 1000000, 1000000, 878431), ("lightyellow2", 933333, 933333, 819608), ("lightyellow3", 803922, 803922, 705882), ("lightyellow4", 545098, 545098, 478431),
  ("lime", 0, 1000000, 0), ("limegreen", 196078, 803922, 196078), ("linen", 980392, 941176, 901961), ("magenta", 1000000, 0, 1000000),
  ("magenta1", 1000000, 0, 1000000), ("magenta2", 933333, 0, 933333), ("magenta3", 803922, 0, 803922), ("magenta4", 545098, 0, 545098),
  ("maroon", 690196, 188235, 376471), ("maroon1", 1000000, 203922, 701961), ("maroon2", 933333, 188235, 654902), ("maroon3", 803922, 160784, 564706),
  ("maroon4", 545098, 109804, 384314), ("mediumaquamarine", 400000, 803922, 666667), ("mediumblue", 0, 0, 803922), ("mediumorchid", 729412, 333333, 827451),
  ("mediumpurple", 576471, 439216, 858824), ("mediumseagreen", 235294, 701961, 443137), ("mediumslateblue", 482353, 407843, 933333), ("mediumspringgreen", 0, 980392, 603922),
  ("mediumturquoise", 282353, 819608, 800000), ("mediumvioletred", 780392, 82353, 521569), ("mediumaquamarine", 729412, 333333, 827451), ("mediumorchid1", 878431, 400000, 1000000),
  ("mediumorchid2", 819608, 372549, 933333), ("mediumorchid3", 705882, 321569, 803922), ("mediumorchid4", 478431, 215686, 545098), ("mediumpurple1", 670588, 509804, 1000000),
  ("mediumpurple2", 623529, 474510, 933333), ("mediumpurple3", 537255, 407843, 803922), ("mediumpurple4", 364706, 278431, 545098), ("mediumseagreen", 780392, 82353, 521569),
  ("midnightblue", 98039, 98039, 439216), ("mintcream", 960784, 1000000, 980392), ("mistyrose", 1000000, 894118, 882353), ("mistyrose1", 1000000, 894118, 882353),
  ("mistyrose2", 933333, 835294, 823529), ("mistyrose3", 803922, 717647, 709804), ("mistyrose4", 545098, 490196, 482353), ("moccasin", 1000000, 894118, 709804),
  ("navajowhite", 1000000, 870588, 678431), ("navajowhite1", 1000000, 870588, 678431), ("navajowhite2", 933333, 811765, 631373), ("navajowhite3", 803922, 701961, 545098),
  ("navajowhite4", 545098, 474510, 368627), ("navy", 0, 0, 501961), ("navyblue", 0, 0, 501961), ("oldlace", 992157, 960784, 901961),
  ("olive", 501961, 501961, 0), ("olivedrab", 419608, 556863, 137255), ("olivedrab1", 752941, 1000000, 243137), ("olivedrab2", 701961, 933333, 227451),
  ("olivedrab3", 603922, 803922, 196078), ("olivedrab4", 411765, 545098, 133333), ("orange", 1000000, 647059, 0), ("orangered", 1000000, 270588, 0),
  ("orange1", 1000000, 647059, 0), ("orange2", 933333, 603922, 0), ("orange3", 803922, 521569, 0), ("orange4", 545098, 352941, 0),
  ("orangered1", 1000000, 270588, 0), ("orangered2", 933333, 250980, 0), ("orangered3", 803922, 215686, 0), ("orangered4", 545098, 145098, 0),
  ("orchid", 854902, 439216, 839216), ("orchid1", 1000000, 513725, 980392), ("orchid2", 933333, 478431, 913725), ("orchid3", 803922, 411765, 788235),
  ("orchid4", 545098, 278431, 537255), ("palegoldenrod", 933333, 909804, 666667), ("palegreen", 596078, 984314, 596078), ("paleturquoise", 686275, 933333, 933333),
  ("palevioletred", 858824, 439216, 576471), ("palegoldenrod", 596078, 984314, 596078), ("palegreen1", 603922, 1000000, 603922), ("palegreen2", 564706, 933333, 564706),
  ("palegreen3", 486275, 803922, 486275), ("palegreen4", 329412, 545098, 329412), ("paleturquoise1", 733333, 1000000, 1000000), ("paleturquoise2", 682353, 933333, 933333),
  ("paleturquoise3", 588235, 803922, 803922), ("paleturquoise4", 400000, 545098, 545098), ("palevioletred1", 1000000, 509804, 670588), ("palevioletred2", 933333, 474510, 623529),
  ("palevioletred3", 803922, 407843, 537255), ("palevioletred4", 545098, 278431, 364706), ("papayawhip", 1000000, 937255, 835294), ("peachpuff", 1000000, 854902, 725490),
  ("peachpuff1", 1000000, 854902, 725490), ("peachpuff2", 933333, 796078, 678431), ("peachpuff3", 803922, 686275, 584314), ("peachpuff4", 545098, 466667, 396078),
  ("peru", 803922, 521569, 247059), ("pink", 1000000, 752941, 796078), ("pink1", 1000000, 709804, 772549), ("pink2", 933333, 662745, 721569),
  ("pink3", 803922, 568627, 619608), ("pink4", 545098, 388235, 423529), ("plum", 866667, 627451, 866667), ("plum1", 1000000, 733333, 1000000),
  ("plum2", 933333, 682353, 933333), ("plum3", 803922, 588235, 803922), ("plum4", 545098, 400000, 545098), ("powderblue", 690196, 878431, 901961),
  ("purple", 627451, 125490, 941176), ("purple1", 607843, 188235, 1000000), ("purple2", 568627, 172549, 933333), ("purple3", 490196, 149020, 803922),
  ("purple4", 333333, 101961, 545098), ("rebeccapurple", 400000, 200000, 600000), ("red", 1000000, 0, 0), ("red1", 1000000, 0, 0),
  ("red2", 933333, 0, 0), ("red3", 803922, 0, 0), ("red4", 545098, 0, 0), ("rosybrown", 737255, 560784, 560784),
  ("rosybrown1", 1000000, 756863, 756863), ("rosybrown2", 933333, 705882, 705882), ("rosybrown3", 803922, 607843, 607843), ("rosybrown4", 545098, 411765, 411765),
  ("royalblue", 254902, 411765, 882353), ("royalblue1", 282353, 462745, 1000000), ("royalblue2", 262745, 431373, 933333), ("royalblue3", 227451, 372549, 803922),
  ("royalblue4", 152941, 250980, 545098), ("saddlebrown", 545098, 270588, 74510), ("salmon", 980392, 501961, 447059), ("salmon1", 1000000, 549020, 411765),
  ("salmon2", 933333, 509804, 384314), ("salmon3", 803922, 439216, 329412), ("salmon4", 545098, 298039, 223529), ("sandybrown", 956863, 643137, 376471),
  ("seagreen", 180392, 545098, 341176), ("seagreen1", 329412, 1000000, 623529), ("seagreen2", 305882, 933333, 580392), ("seagreen3", 262745, 803922, 501961),
  ("seagreen4", 180392, 545098, 341176), ("seashell", 1000000, 960784, 933333), ("seashell1", 1000000, 960784, 933333), ("seashell2", 933333, 898039, 870588),
  ("seashell3", 803922, 772549, 749020), ("seashell4", 545098, 525490, 509804), ("sienna", 627451, 321569, 176471), ("sienna1", 1000000, 509804, 278431),
  ("sienna2", 933333, 474510, 258824), ("sienna3", 803922, 407843, 223529), ("sienna4", 545098, 278431, 149020), ("silver", 752941, 752941, 752941),
  ("skyblue", 529412, 807843, 921569), ("skyblue1", 529412, 807843, 1000000), ("skyblue2", 494118, 752941, 933333), ("skyblue3", 423529, 650980, 803922),
  ("skyblue4", 290196, 439216, 545098), ("slateblue", 415686, 352941, 803922), ("slategray", 439216, 501961, 564706), ("slategrey", 439216, 501961, 564706),
  ("slateblue1", 513725, 435294, 1000000), ("slateblue2", 478431, 403922, 933333), ("slateblue3", 411765, 349020, 803922), ("slateblue4", 278431, 235294, 545098),
  ("slategray1", 776471, 886275, 1000000), ("slategray2", 725490, 827451, 933333), ("slategray3", 623529, 713725, 803922), ("slategray4", 423529, 482353, 545098),
  ("snow", 1000000, 980392, 980392), ("snow1", 1000000, 980392, 980392), ("snow2", 933333, 913725, 913725), ("snow3", 803922, 788235, 788235),
  ("snow4", 545098, 537255, 537255), ("springgreen", 0, 1000000, 498039), ("springgreen1", 0, 1000000, 498039), ("springgreen2", 0, 933333, 462745),
  ("springgreen3", 0, 803922, 400000), ("springgreen4", 0, 545098, 270588), ("steelblue", 274510, 509804, 705882), ("steelblue1", 388235, 721569, 1000000),
  ("steelblue2", 360784, 674510, 933333), ("steelblue3", 309804, 580392, 803922), ("steelblue4", 211765, 392157, 545098), ("tan", 823529, 705882, 549020),
  ("tan1", 1000000, 647059, 309804), ("tan2", 933333, 603922, 286275), ("tan3", 803922, 521569, 247059), ("tan4", 545098, 352941, 168627),
  ("teal", 0, 501961, 501961), ("thistle", 847059, 749020, 847059), ("thistle1", 1000000, 882353, 1000000), ("thistle2", 933333, 823529, 933333),
  ("thistle3", 803922, 709804, 803922), ("thistle4", 545098, 482353, 545098), ("tomato", 1000000, 388235, 278431), ("tomato1", 1000000, 388235, 278431),
  ("tomato2", 933333, 360784, 258824), ("tomato3", 803922, 309804, 223529), ("tomato4", 545098, 211765, 149020), ("turquoise", 250980, 878431, 815686),
  ("turquoise1", 0, 960784, 1000000), ("turquoise2", 0, 898039, 933333), ("turquoise3", 0, 772549, 803922), ("turquoise4", 0, 525490, 545098),
  ("violet", 933333, 509804, 933333), ("violetred", 815686, 125490, 564706), ("violetred1", 1000000, 243137, 588235), ("violetred2", 933333, 227451, 549020),
  ("violetred3", 803922, 196078, 470588), ("violetred4", 545098, 133333, 321569), ("webgray", 501961, 501961, 501961), ("webgreen", 0, 501961, 0),
  ("webgrey", 501961, 501961, 501961), ("webmaroon", 501961, 0, 0), ("webpurple", 501961, 0, 501961), ("webgray", 501961, 0, 501961),
  ("wheat", 960784, 870588, 701961), ("wheat1", 1000000, 905882, 729412), ("wheat2", 933333, 847059, 682353), ("wheat3", 803922, 729412, 588235),
  ("wheat4", 545098, 494118, 400000), ("white", 1000000, 1000000, 1000000), ("whitesmoke", 960784, 960784, 960784), ("x11gray", 745098, 745098, 745098),
  ("x11green", 0, 1000000, 0), ("x11grey", 745098, 745098, 745098), ("x11maroon", 690196, 188235, 376471), ("x11purple", 627451, 125490, 941176),
  ("x11gray", 627451, 125490, 941176), ("yellow", 1000000, 1000000, 0), ("yellowgreen", 603922, 803922, 196078), ("yellow1", 1000000, 1000000, 0),
  ("yellow2", 933333, 933333, 0), ("yellow3", 803922, 803922, 0), ("yellow4", 545098, 545098, 0)]

/-- XKCDcolordict.py 1-926 `getXKCDcolorname2HSLdict`: hue in degrees, saturation and lightness in percent -/
def xkcdHSL : List (String × Nat × Nat × Nat) := [
  ("acidgreen", 87, 99, 52), ("adobe", 18, 47, 51), ("algae", 134, 35, 50), ("algaegreen", 149, 71, 45),
  ("almostblack", 180, 30, 4), ("amber", 42, 99, 51), ("amethyst", 277, 43, 56), ("apple", 99, 58, 52),
  ("applegreen", 91, 69, 48), ("apricot", 28, 100, 71), ("aqua", 171, 85, 50), ("aquablue", 184, 98, 46),
  ("aquagreen", 157, 85, 48), ("aquamarine", 165, 80, 55), ("armygreen", 75, 62, 23), ("asparagus", 97, 34, 50),
  ("aubergine", 310, 79, 13), ("auburn", 18, 99, 30), ("avocado", 76, 55, 45), ("avocadogreen", 75, 67, 40),
  ("azul", 221, 84, 52), ("azure", 203, 95, 49), ("babyblue", 211, 98, 82), ("babygreen", 129, 100, 77),
  ("babypink", 341, 100, 86), ("babypoo", 50, 95, 34), ("babypoop", 51, 100, 29), ("babypoopgreen", 64, 94, 31),
  ("babypukegreen", 64, 94, 40), ("babypurple", 271, 85, 79), ("babyshitbrown", 49, 86, 36), ("babyshitgreen", 67, 74, 34),
  ("banana", 60, 100, 75), ("bananayellow", 61, 99, 65), ("barbiepink", 329, 99, 64), ("barfgreen", 68, 98, 34),
  ("barney", 295, 73, 42), ("barneypurple", 303, 95, 32), ("battleshipgrey", 201, 11, 47), ("beige", 49, 56, 78),
  ("berry", 334, 82, 33), ("bile", 64, 94, 39), ("black", 0, 0, 0), ("bland", 48, 18, 62),
  ("blood", 359, 100, 23), ("bloodorange", 17, 99, 50), ("bloodred", 359, 100, 30), ("blue", 223, 97, 44),
  ("bluegreen", 174, 82, 33), ("bluegrey", 209, 20, 55), ("bluepurple", 262, 95, 48), ("blueberry", 244, 40, 42),
  ("blueblue", 228, 71, 46), ("blueviolet", 263, 95, 47), ("bluewithahintofpurple", 250, 55, 51), ("blueygreen", 155, 61, 43),
  ("blueygrey", 205, 20, 61), ("blueypurple", 255, 54, 52), ("bluish", 208, 64, 45), ("bluishgreen", 160, 82, 36),
  ("bluishgrey", 201, 14, 52), ("bluishpurple", 258, 78, 57), ("blurple", 251, 59, 51), ("blush", 10, 79, 75),
  ("blushpink", 355, 98, 75), ("booger", 73, 50, 47), ("boogergreen", 70, 97, 36), ("bordeaux", 339, 100, 24),
  ("boringgreen", 122, 34, 55), ("bottlegreen", 121, 90, 15), ("brick", 9, 64, 38), ("brickorange", 21, 91, 40),
  ("brickred", 8, 97, 28), ("brightaqua", 176, 95, 51), ("brightblue", 216, 99, 50), ("brightcyan", 180, 99, 63),
  ("brightgreen", 121, 100, 50), ("brightlavender", 279, 100, 69), ("brightlightblue", 182, 98, 57), ("brightlightgreen", 131, 99, 59),
  ("brightlilac", 281, 95, 68), ("brightlime", 89, 98, 51), ("brightlimegreen", 97, 99, 51), ("brightmagenta", 306, 100, 52),
  ("brightolive", 70, 96, 37), ("brightorange", 21, 100, 50), ("brightpink", 318, 99, 50), ("brightpurple", 285, 98, 50),
  ("brightred", 357, 100, 50), ("brightseagreen", 159, 100, 51), ("brightskyblue", 192, 99, 50), ("brightteal", 168, 99, 49),
  ("brightturquoise", 179, 99, 53), ("brightviolet", 280, 98, 52), ("brightyellow", 60, 100, 50), ("brightyellowgreen", 83, 100, 50),
  ("britishracinggreen", 127, 87, 15), ("bronze", 43, 100, 33), ("brown", 33, 100, 20), ("browngreen", 57, 74, 25),
  ("browngrey", 45, 15, 48), ("brownish", 19, 28, 48), ("brownishgreen", 62, 85, 23), ("brownishgrey", 37, 17, 45),
  ("brownishorange", 30, 71, 47), ("brownishpink", 4, 37, 62), ("brownishpurple", 346, 28, 36), ("brownishred", 9, 64, 38),
  ("brownishyellow", 52, 97, 40), ("brownorange", 34, 98, 37), ("brownred", 16, 93, 30), ("brownyellow", 51, 95, 36),
  ("brownygreen", 58, 83, 24), ("brownyorange", 32, 98, 40), ("bruise", 313, 33, 37), ("bubblegum", 330, 100, 71),
  ("bubblegumpink", 332, 100, 71), ("buff", 55, 98, 81), ("burgundy", 338, 100, 19), ("burntorange", 24, 99, 38),
  ("burntred", 12, 94, 32), ("burntsiena", 26, 97, 36), ("burntsienna", 23, 84, 37), ("burntumber", 23, 84, 34),
  ("burntyellow", 48, 92, 44), ("burple", 258, 76, 54), ("butter", 60, 100, 75), ("butterscotch", 35, 98, 64),
  ("butteryellow", 59, 100, 73), ("cadetblue", 208, 32, 45), ("camel", 39, 49, 56), ("camo", 75, 29, 43),
  ("camogreen", 78, 46, 27), ("camouflagegreen", 77, 67, 23), ("canary", 61, 100, 69), ("canaryyellow", 60, 100, 63),
  ("candypink", 308, 100, 69), ("caramel", 37, 90, 36), ("carmine", 352, 97, 31), ("carnation", 350, 97, 73),
  ("carnationpink", 341, 100, 75), ("carolinablue", 216, 98, 77), ("celadon", 114, 95, 85), ("celery", 95, 96, 79),
  ("cement", 54, 10, 61), ("cerise", 335, 90, 46), ("cerulean", 202, 96, 42), ("ceruleanblue", 213, 96, 48),
  ("charcoal", 165, 4, 21), ("charcoalgrey", 190, 5, 25), ("chartreuse", 74, 94, 51), ("cherry", 345, 98, 41),
  ("cherryred", 350, 98, 49), ("chestnut", 20, 97, 23), ("chocolate", 26, 94, 12), ("chocolatebrown", 23, 100, 13),
  ("cinnamon", 26, 93, 35), ("claret", 346, 100, 20), ("clay", 15, 41, 51), ("claybrown", 27, 49, 47),
  ("clearblue", 216, 98, 57), ("cloudyblue", 211, 37, 76), ("cobalt", 218, 65, 34), ("cobaltblue", 237, 96, 33),
  ("cocoa", 25, 34, 39), ("coffee", 35, 37, 47), ("coolblue", 208, 44, 50), ("coolgreen", 142, 57, 46),
  ("coolgrey", 191, 9, 62), ("copper", 26, 66, 43), ("coral", 3, 97, 65), ("coralpink", 359, 100, 69),
  ("cornflower", 234, 90, 69), ("cornflowerblue", 226, 63, 58), ("cranberry", 338, 100, 31), ("cream", 60, 100, 88),
  ("creme", 60, 100, 86), ("crimson", 354, 100, 27), ("custard", 59, 100, 74), ("cyan", 180, 100, 50),
  ("dandelion", 52, 99, 51), ("dark", 215, 29, 15), ("darkaqua", 181, 91, 22), ("darkaquamarine", 179, 98, 23),
  ("darkbeige", 40, 31, 53), ("darkblue", 238, 94, 20), ("darkbluegreen", 173, 100, 16), ("darkbluegrey", 203, 43, 21),
  ("darkbrown", 31, 93, 11), ("darkcoral", 2, 57, 56), ("darkcream", 53, 100, 80), ("darkcyan", 181, 86, 29),
  ("darkforestgreen", 125, 100, 9), ("darkfuchsia", 327, 91, 32), ("darkgold", 48, 84, 39), ("darkgrassgreen", 95, 94, 26),
  ("darkgreen", 122, 87, 15), ("darkgreenblue", 169, 52, 25), ("darkgrey", 180, 1, 21), ("darkgreyblue", 205, 38, 26),
  ("darkhotpink", 332, 99, 43), ("darkindigo", 258, 81, 18), ("darkishblue", 210, 98, 26), ("darkishgreen", 131, 51, 32),
  ("darkishpink", 338, 67, 56), ("darkishpurple", 301, 65, 28), ("darkishred", 358, 97, 34), ("darkkhaki", 50, 29, 47),
  ("darklavender", 277, 19, 50), ("darklilac", 290, 24, 54), ("darklime", 77, 99, 36), ("darklimegreen", 80, 99, 37),
  ("darkmagenta", 326, 100, 29), ("darkmaroon", 352, 100, 12), ("darkmauve", 338, 28, 41), ("darkmint", 141, 49, 52),
  ("darkmintgreen", 151, 71, 44), ("darkmustard", 49, 94, 34), ("darknavy", 235, 100, 10), ("darknavyblue", 237, 100, 9),
  ("darkolive", 67, 94, 13), ("darkolivegreen", 74, 92, 16), ("darkorange", 24, 98, 39), ("darkpastelgreen", 121, 35, 51),
  ("darkpeach", 15, 66, 62), ("darkperiwinkle", 244, 55, 60), ("darkpink", 342, 57, 53), ("darkplum", 318, 97, 13),
  ("darkpurple", 290, 82, 13), ("darkred", 0, 100, 26), ("darkrose", 348, 43, 50), ("darkroyalblue", 238, 96, 22),
  ("darksage", 116, 21, 43), ("darksalmon", 4, 52, 55), ("darksand", 41, 31, 50), ("darkseafoam", 156, 71, 42),
  ("darkseafoamgreen", 150, 48, 46), ("darkseagreen", 159, 78, 30), ("darkskyblue", 212, 75, 58), ("darkslateblue", 204, 49, 25),
  ("darktan", 37, 41, 49), ("darktaupe", 32, 24, 40), ("darkteal", 181, 97, 15), ("darkturquoise", 179, 92, 19),
  ("darkviolet", 289, 97, 13), ("darkyellow", 51, 91, 44), ("darkyellowgreen", 72, 97, 28), ("deepaqua", 184, 88, 26),
  ("deepblue", 241, 97, 23), ("deepbrown", 2, 100, 13), ("deepgreen", 129, 96, 18), ("deeplavender", 272, 38, 54),
  ("deeplilac", 270, 37, 59), ("deepmagenta", 326, 98, 32), ("deeporange", 21, 99, 43), ("deeppink", 331, 99, 40),
  ("deeppurple", 291, 97, 13), ("deepred", 1, 100, 30), ("deeprose", 345, 53, 53), ("deepseablue", 201, 98, 26),
  ("deepskyblue", 213, 94, 51), ("deepteal", 183, 100, 18), ("deepturquoise", 181, 98, 23), ("deepviolet", 301, 85, 15),
  ("denim", 210, 41, 39), ("denimblue", 218, 42, 40), ("desert", 43, 51, 59), ("diarrhea", 49, 96, 32),
  ("dirt", 36, 33, 41), ("dirtbrown", 36, 39, 37), ("dirtyblue", 197, 43, 43), ("dirtygreen", 78, 48, 33),
  ("dirtyorange", 35, 94, 40), ("dirtypink", 356, 43, 64), ("dirtypurple", 320, 22, 37), ("dirtyyellow", 58, 91, 42),
  ("dodgerblue", 219, 97, 62), ("drab", 61, 32, 39), ("drabgreen", 89, 30, 45), ("driedblood", 0, 97, 15),
  ("duckeggblue", 173, 88, 87), ("dullblue", 208, 36, 45), ("dullbrown", 35, 29, 41), ("dullgreen", 104, 28, 52),
  ("dullorange", 29, 67, 54), ("dullpink", 343, 48, 68), ("dullpurple", 308, 19, 43), ("dullred", 0, 50, 49),
  ("dullteal", 166, 25, 50), ("dullyellow", 53, 81, 65), ("dusk", 233, 25, 41), ("duskblue", 214, 58, 35),
  ("duskyblue", 221, 35, 43), ("duskypink", 348, 45, 64), ("duskypurple", 318, 20, 45), ("duskyrose", 352, 37, 57),
  ("dust", 38, 31, 56), ("dustyblue", 208, 34, 52), ("dustygreen", 117, 24, 56), ("dustylavender", 306, 19, 60),
  ("dustyorange", 24, 86, 58), ("dustypink", 352, 47, 69), ("dustypurple", 292, 17, 45), ("dustyred", 357, 45, 50),
  ("dustyrose", 355, 38, 60), ("dustyteal", 170, 31, 43), ("earth", 23, 45, 44), ("eastergreen", 113, 97, 74),
  ("easterpurple", 274, 99, 72), ("ecru", 61, 100, 90), ("eggplant", 304, 75, 13), ("eggplantpurple", 302, 86, 14),
  ("eggshell", 57, 100, 88), ("eggshellblue", 172, 100, 88), ("electricblue", 222, 100, 51), ("electricgreen", 115, 98, 52),
  ("electriclime", 81, 100, 51), ("electricpink", 327, 100, 51), ("electricpurple", 277, 100, 57), ("emerald", 147, 99, 32),
  ("emeraldgreen", 132, 97, 28), ("evergreen", 154, 87, 15), ("fadedblue", 213, 39, 56), ("fadedgreen", 113, 29, 58),
  ("fadedorange", 26, 84, 62), ("fadedpink", 346, 50, 74), ("fadedpurple", 289, 17, 52), ("fadedred", 358, 61, 56),
  ("fadedyellow", 60, 100, 75), ("fawn", 37, 47, 65), ("fern", 107, 36, 49), ("ferngreen", 107, 35, 41),
  ("fireenginered", 360, 100, 50), ("flatblue", 209, 47, 45), ("flatgreen", 99, 35, 46), ("fluorescentgreen", 120, 100, 52),
  ("flurogreen", 118, 100, 50), ("foamgreen", 134, 96, 78), ("forest", 118, 81, 18), ("forestgreen", 126, 84, 15),
  ("forrestgreen", 105, 84, 15), ("frenchblue", 217, 44, 47), ("freshgreen", 109, 64, 58), ("froggreen", 93, 92, 38),
  ("fuchsia", 305, 90, 49), ("gold", 49, 90, 45), ("golden", 47, 98, 49), ("goldenbrown", 41, 99, 35),
  ("goldenrod", 45, 95, 50), ("goldenyellow", 46, 99, 54), ("grape", 312, 35, 31), ("grapefruit", 1, 98, 66),
  ("grapepurple", 310, 65, 22), ("grass", 98, 59, 43), ("grassgreen", 98, 87, 33), ("grassygreen", 96, 96, 31),
  ("green", 122, 79, 39), ("greenblue", 164, 99, 38), ("greenyellow", 68, 93, 42), ("greenapple", 100, 75, 49),
  ("greenbrown", 56, 93, 17), ("greengrey", 106, 14, 50), ("greenish", 144, 44, 45), ("greenishbeige", 65, 49, 65),
  ("greenishblue", 178, 85, 29), ("greenishbrown", 54, 71, 24), ("greenishcyan", 160, 99, 58), ("greenishgrey", 104, 17, 62),
  ("greenishtan", 71, 44, 64), ("greenishteal", 155, 59, 47), ("greenishturquoise", 162, 100, 49), ("greenishyellow", 71, 98, 50),
  ("greenteal", 158, 88, 38), ("greenyblue", 164, 46, 48), ("greenybrown", 55, 89, 22), ("greenygrey", 114, 17, 55),
  ("greenyyellow", 72, 94, 50), ("grey", 105, 2, 58), ("greyblue", 204, 17, 47), ("greygreen", 105, 16, 56),
  ("greybrown", 40, 21, 41), ("greyish", 47, 10, 62), ("greyishblue", 207, 25, 49), ("greyishbrown", 38, 21, 39),
  ("greyishgreen", 113, 19, 57), ("greyishpink", 353, 35, 67), ("greyishpurple", 283, 13, 51), ("greyishteal", 162, 19, 53),
  ("greypink", 347, 30, 66), ("greypurple", 281, 12, 49), ("greyteal", 163, 24, 49), ("grossgreen", 71, 79, 42),
  ("gunmetal", 195, 11, 36), ("hazel", 48, 71, 33), ("heather", 288, 19, 60), ("heliotrope", 290, 89, 64),
  ("highlightergreen", 115, 98, 51), ("hospitalgreen", 132, 59, 75), ("hotgreen", 121, 100, 57), ("hotmagenta", 311, 97, 49),
  ("hotpink", 327, 100, 50), ("hotpurple", 290, 100, 48), ("huntergreen", 117, 78, 14), ("ice", 173, 100, 92),
  ("iceblue", 178, 100, 92), ("ickygreen", 73, 67, 41), ("indianred", 5, 94, 27), ("indigo", 265, 97, 26),
  ("indigoblue", 253, 76, 39), ("iris", 246, 48, 56), ("irishgreen", 136, 99, 29), ("ivory", 60, 100, 90),
  ("jade", 158, 69, 39), ("jadegreen", 149, 61, 43), ("junglegreen", 150, 94, 26), ("kelleygreen", 142, 100, 29),
  ("kellygreen", 136, 98, 34), ("kermitgreen", 89, 100, 35), ("keylime", 94, 100, 72), ("khaki", 57, 30, 53),
  ("khakigreen", 76, 40, 37), ("kiwi", 89, 84, 60), ("kiwigreen", 91, 76, 57), ("lavender", 270, 71, 78),
  ("lavenderblue", 242, 89, 75), ("lavenderpink", 304, 56, 69), ("lawngreen", 94, 90, 34), ("leaf", 89, 53, 44),
  ("leafgreen", 88, 95, 34), ("leafygreen", 109, 51, 47), ("leather", 32, 54, 44), ("lemon", 61, 100, 66),
  ("lemongreen", 78, 98, 49), ("lemonlime", 78, 99, 58), ("lemonyellow", 61, 100, 61), ("lichen", 100, 29, 60),
  ("lightaqua", 161, 100, 77), ("lightaquamarine", 155, 97, 74), ("lightbeige", 59, 100, 86), ("lightblue", 202, 87, 72),
  ("lightbluegreen", 145, 94, 74), ("lightbluegrey", 215, 43, 80), ("lightbluishgreen", 142, 97, 73), ("lightbrightgreen", 123, 99, 66),
  ("lightbrown", 32, 37, 50), ("lightburgundy", 345, 44, 46), ("lightcyan", 178, 100, 84), ("lighteggplant", 304, 33, 40),
  ("lightergreen", 113, 97, 69), ("lighterpurple", 269, 88, 65), ("lightforestgreen", 124, 29, 44), ("lightgold", 48, 98, 68),
  ("lightgrassgreen", 98, 90, 68), ("lightgreen", 122, 100, 73), ("lightgreenblue", 147, 97, 66), ("lightgreenishblue", 153, 90, 68),
  ("lightgrey", 100, 8, 85), ("lightgreyblue", 206, 39, 72), ("lightgreygreen", 99, 52, 76), ("lightindigo", 250, 55, 58),
  ("lightishblue", 221, 98, 62), ("lightishgreen", 120, 68, 63), ("lightishpurple", 274, 75, 61), ("lightishred", 352, 99, 59),
  ("lightkhaki", 69, 75, 79), ("lightlavendar", 285, 97, 87), ("lightlavender", 267, 97, 88), ("lightlightblue", 175, 100, 90),
  ("lightlightgreen", 102, 100, 85), ("lightlilac", 280, 100, 89), ("lightlime", 93, 97, 71), ("lightlimegreen", 87, 100, 70),
  ("lightmagenta", 301, 94, 68), ("lightmaroon", 350, 38, 46), ("lightmauve", 341, 28, 67), ("lightmint", 124, 100, 86),
  ("lightmintgreen", 128, 91, 82), ("lightmossgreen", 85, 43, 62), ("lightmustard", 46, 90, 67), ("lightnavy", 208, 73, 30),
  ("lightnavyblue", 211, 49, 36), ("lightneongreen", 122, 98, 65), ("lightolive", 73, 40, 58), ("lightolivegreen", 76, 43, 55),
  ("lightorange", 32, 98, 64), ("lightpastelgreen", 111, 91, 82), ("lightpeach", 30, 100, 85), ("lightpeagreen", 88, 98, 75),
  ("lightperiwinkle", 235, 91, 87), ("lightpink", 342, 100, 91), ("lightplum", 322, 29, 48), ("lightpurple", 274, 88, 72),
  ("lightred", 358, 100, 64), ("lightrose", 354, 100, 89), ("lightroyalblue", 243, 99, 59), ("lightsage", 105, 63, 80),
  ("lightsalmon", 12, 98, 79), ("lightseafoam", 140, 98, 81), ("lightseafoamgreen", 130, 100, 83), ("lightseagreen", 135, 84, 78),
  ("lightskyblue", 183, 100, 89), ("lighttan", 50, 91, 83), ("lightteal", 155, 61, 73), ("lightturquoise", 160, 84, 73),
  ("lighturple", 270, 88, 70), ("lightviolet", 268, 92, 85), ("lightyellow", 60, 100, 74), ("lightyellowgreen", 83, 97, 75),
  ("lightyellowishgreen", 91, 100, 77), ("lilac", 269, 96, 81), ("liliac", 269, 97, 77), ("lime", 85, 100, 60),
  ("limegreen", 88, 99, 51), ("limeyellow", 72, 99, 55), ("lipstick", 343, 81, 46), ("lipstickred", 346, 98, 38),
  ("macaroniandcheese", 41, 85, 57), ("magenta", 323, 100, 38), ("mahogany", 1, 100, 15), ("maize", 46, 88, 64),
  ("mango", 35, 100, 58), ("manilla", 58, 100, 76), ("marigold", 45, 98, 51), ("marine", 213, 92, 20),
  ("marineblue", 209, 98, 21), ("maroon", 340, 100, 20), ("mauve", 344, 27, 56), ("mediumblue", 212, 62, 45),
  ("mediumbrown", 35, 75, 28), ("mediumgreen", 128, 50, 45), ("mediumgrey", 100, 1, 49), ("mediumpink", 338, 86, 67),
  ("mediumpurple", 297, 41, 45), ("melon", 12, 100, 67), ("merlot", 330, 100, 23), ("metallicblue", 206, 29, 43),
  ("midblue", 211, 64, 43), ("midgreen", 114, 40, 47), ("midnight", 243, 96, 9), ("midnightblue", 242, 100, 10),
  ("midnightpurple", 283, 96, 11), ("militarygreen", 81, 33, 36), ("milkchocolate", 30, 62, 31), ("mint", 131, 98, 81),
  ("mintgreen", 129, 100, 78), ("mintygreen", 149, 94, 51), ("mocha", 29, 32, 47), ("moss", 92, 27, 47),
  ("mossgreen", 87, 43, 38), ("mossygreen", 84, 56, 35), ("mud", 46, 73, 26), ("mudbrown", 41, 73, 22),
  ("muddybrown", 45, 92, 28), ("muddygreen", 74, 40, 33), ("muddyyellow", 54, 95, 38), ("mudgreen", 64, 96, 20),
  ("mulberry", 330, 87, 31), ("murkygreen", 68, 79, 27), ("mushroom", 26, 27, 63), ("mustard", 52, 99, 41),
  ("mustardbrown", 44, 95, 35), ("mustardgreen", 64, 96, 36), ("mustardyellow", 54, 91, 43), ("mutedblue", 208, 46, 43),
  ("mutedgreen", 110, 32, 47), ("mutedpink", 344, 50, 64), ("mutedpurple", 290, 19, 44), ("nastygreen", 94, 48, 47),
  ("navy", 220, 97, 12), ("navyblue", 225, 100, 14), ("navygreen", 85, 78, 18), ("neonblue", 189, 100, 51),
  ("neongreen", 120, 100, 52), ("neonpink", 324, 99, 50), ("neonpurple", 283, 99, 54), ("neonred", 348, 100, 51),
  ("neonyellow", 71, 100, 51), ("niceblue", 200, 83, 38), ("nightblue", 241, 92, 15), ("ocean", 190, 99, 29),
  ("oceanblue", 197, 96, 31), ("oceangreen", 155, 43, 42), ("ocher", 48, 88, 40), ("ochre", 45, 95, 38),
  ("ocre", 47, 96, 40), ("offblue", 209, 35, 51), ("offgreen", 102, 33, 48), ("offwhite", 60, 100, 95),
  ("offyellow", 61, 88, 60), ("oldpink", 350, 41, 63), ("oldrose", 352, 40, 64), ("olive", 64, 79, 26),
  ("olivebrown", 50, 94, 20), ("olivedrab", 66, 40, 33), ("olivegreen", 70, 94, 25), ("oliveyellow", 56, 91, 40),
  ("orange", 27, 95, 50), ("orangebrown", 32, 100, 37), ("orangeish", 23, 98, 64), ("orangepink", 10, 100, 66),
  ("orangered", 13, 99, 53), ("orangeybrown", 32, 98, 35), ("orangeyellow", 41, 100, 50), ("orangeyred", 8, 96, 56),
  ("orangeyyellow", 42, 98, 54), ("orangish", 19, 97, 64), ("orangishbrown", 32, 97, 35), ("orangishred", 12, 96, 49),
  ("orchid", 303, 43, 62), ("pale", 52, 100, 91), ("paleaqua", 163, 100, 86), ("paleblue", 180, 96, 91),
  ("palebrown", 31, 30, 56), ("palecyan", 176, 100, 86), ("palegold", 47, 97, 71), ("palegreen", 105, 95, 85),
  ("palegrey", 240, 33, 99), ("palelavender", 280, 96, 90), ("palelightgreen", 105, 94, 79), ("palelilac", 269, 100, 90),
  ("palelime", 87, 97, 72), ("palelimegreen", 90, 100, 70), ("palemagenta", 322, 58, 62), ("palemauve", 303, 96, 91),
  ("paleolive", 75, 42, 65), ("paleolivegreen", 83, 49, 65), ("paleorange", 29, 100, 67), ("palepeach", 41, 100, 84),
  ("palepink", 344, 100, 91), ("palepurple", 274, 44, 70), ("palered", 3, 65, 58), ("palerose", 356, 94, 87),
  ("palesalmon", 14, 100, 80), ("paleskyblue", 187, 97, 87), ("paleteal", 159, 41, 65), ("paleturquoise", 153, 91, 82),
  ("paleviolet", 265, 88, 83), ("paleyellow", 60, 100, 76), ("parchment", 58, 98, 84), ("pastelblue", 221, 98, 82),
  ("pastelgreen", 108, 100, 81), ("pastelorange", 24, 100, 65), ("pastelpink", 343, 100, 86), ("pastelpurple", 267, 100, 81),
  ("pastelred", 1, 65, 60), ("pastelyellow", 60, 100, 72), ("pea", 70, 71, 44), ("peach", 24, 100, 74),
  ("peachypink", 8, 100, 77), ("peacockblue", 199, 99, 29), ("peagreen", 71, 81, 37), ("pear", 78, 92, 67),
  ("peasoup", 63, 99, 30), ("peasoupgreen", 68, 76, 37), ("periwinkle", 246, 98, 75), ("periwinkleblue", 234, 93, 77),
  ("perrywinkle", 242, 65, 73), ("petrol", 186, 100, 21), ("pigpink", 344, 65, 73), ("pine", 131, 37, 27),
  ("pinegreen", 139, 76, 16), ("pink", 330, 100, 75), ("pinkpurple", 302, 87, 53), ("pinkish", 349, 55, 62),
  ("pinkishbrown", 13, 34, 54), ("pinkishgrey", 6, 22, 72), ("pinkishorange", 13, 100, 65), ("pinkishpurple", 300, 64, 56),
  ("pinkishred", 345, 91, 50), ("pinkishtan", 17, 53, 68), ("pinkred", 342, 96, 49), ("pinky", 342, 95, 76),
  ("pinkypurple", 305, 54, 54), ("pinkyred", 351, 97, 57), ("pissyellow", 58, 80, 48), ("pistachio", 91, 92, 76),
  ("plum", 319, 71, 20), ("plumpurple", 298, 88, 17), ("poisongreen", 109, 98, 54), ("poo", 48, 96, 29),
  ("poobrown", 42, 99, 27), ("poop", 44, 100, 25), ("poopbrown", 44, 98, 24), ("poopgreen", 66, 100, 24),
  ("powderblue", 214, 93, 84), ("powderpink", 337, 100, 85), ("primaryblue", 241, 97, 50), ("prussianblue", 205, 100, 23),
  ("puce", 32, 34, 48), ("puke", 60, 98, 33), ("pukebrown", 48, 92, 30), ("pukegreen", 67, 92, 35),
  ("pukeyellow", 59, 87, 41), ("pumpkin", 32, 99, 44), ("pumpkinorange", 29, 97, 51), ("pureblue", 240, 98, 45),
  ("purple", 286, 68, 36), ("purpleblue", 261, 73, 47), ("purplepink", 298, 74, 51), ("purplebrown", 353, 28, 32),
  ("purplegrey", 303, 9, 48), ("purpleish", 310, 28, 47), ("purpleishblue", 251, 85, 59), ("purpleishpink", 310, 69, 59),
  ("purplered", 332, 99, 30), ("purpley", 261, 72, 62), ("purpleyblue", 254, 79, 55), ("purpleygrey", 300, 9, 54),
  ("purpleypink", 306, 56, 51), ("purplish", 308, 26, 46), ("purplishblue", 258, 95, 55), ("purplishbrown", 353, 24, 34),
  ("purplishgrey", 287, 10, 45), ("purplishpink", 317, 54, 59), ("purplishred", 335, 94, 35), ("purply", 286, 48, 47),
  ("purplyblue", 262, 86, 52), ("purplypink", 305, 80, 70), ("putty", 42, 29, 64), ("racinggreen", 119, 100, 14),
  ("radioactivegreen", 116, 96, 55), ("raspberry", 335, 99, 35), ("rawsienna", 38, 100, 30), ("rawumber", 32, 90, 35),
  ("reallylightblue", 180, 100, 92), ("red", 0, 100, 45), ("redbrown", 12, 73, 32), ("reddish", 1, 53, 51),
  ("reddishbrown", 17, 85, 27), ("reddishgrey", 7, 17, 52), ("reddishorange", 12, 94, 54), ("reddishpink", 349, 99, 58),
  ("reddishpurple", 328, 88, 30), ("reddybrown", 6, 91, 23), ("redorange", 13, 98, 51), ("redpink", 348, 95, 57),
  ("redpurple", 329, 90, 27), ("redviolet", 321, 99, 31), ("redwine", 338, 100, 27), ("richblue", 234, 98, 49),
  ("richpurple", 314, 100, 22), ("robineggblue", 187, 98, 77), ("robinsegg", 187, 97, 71), ("robinseggblue", 186, 89, 79),
  ("rosa", 345, 98, 76), ("rose", 350, 53, 60), ("rosepink", 350, 88, 75), ("rosered", 341, 99, 37),
  ("rosypink", 344, 89, 69), ("rouge", 345, 81, 37), ("royal", 235, 85, 31), ("royalblue", 240, 95, 34),
  ("royalpurple", 281, 100, 22), ("ruby", 339, 99, 40), ("russet", 20, 94, 33), ("rust", 19, 90, 35),
  ("rustbrown", 20, 96, 28), ("rustorange", 25, 92, 40), ("rustred", 13, 95, 34), ("rustyorange", 24, 92, 42),
  ("rustyred", 13, 86, 37), ("saffron", 41, 99, 52), ("sage", 100, 27, 57), ("sagegreen", 104, 28, 59),
  ("salmon", 5, 100, 71), ("salmonpink", 360, 98, 74), ("sand", 47, 65, 67), ("sandbrown", 39, 51, 59),
  ("sandstone", 41, 44, 62), ("sandy", 48, 81, 71), ("sandybrown", 42, 46, 57), ("sandyellow", 49, 96, 69),
  ("sandyyellow", 53, 97, 72), ("sapgreen", 84, 74, 31), ("sapphire", 230, 68, 40), ("scarlet", 352, 99, 37),
  ("sea", 175, 44, 42), ("seablue", 194, 95, 30), ("seafoam", 142, 91, 74), ("seafoamblue", 162, 49, 65),
  ("seafoamgreen", 143, 91, 73), ("seagreen", 148, 97, 66), ("seaweed", 152, 79, 46), ("seaweedgreen", 147, 53, 44),
  ("sepia", 28, 56, 38), ("shamrock", 145, 99, 35), ("shamrockgreen", 144, 98, 38), ("shit", 45, 100, 25),
  ("shitbrown", 42, 94, 25), ("shitgreen", 65, 100, 25), ("shockingpink", 322, 99, 50), ("sickgreen", 72, 62, 45),
  ("sicklygreen", 72, 73, 40), ("sicklyyellow", 66, 78, 53), ("sienna", 24, 70, 39), ("silver", 150, 4, 78),
  ("sky", 205, 95, 75), ("skyblue", 209, 97, 73), ("slate", 204, 17, 38), ("slateblue", 208, 25, 48),
  ("slategreen", 132, 17, 47), ("slategrey", 204, 10, 39), ("slimegreen", 75, 96, 41), ("snot", 65, 87, 39),
  ("snotgreen", 71, 100, 38), ("softblue", 224, 76, 65), ("softgreen", 125, 40, 60), ("softpink", 348, 95, 84),
  ("softpurple", 287, 32, 57), ("spearmint", 144, 94, 55), ("springgreen", 95, 92, 71), ("spruce", 152, 81, 21),
  ("squash", 41, 89, 52), ("steel", 208, 14, 52), ("steelblue", 207, 26, 48), ("steelgrey", 198, 11, 49),
  ("stone", 47, 19, 60), ("stormyblue", 206, 32, 46), ("straw", 57, 96, 73), ("strawberry", 353, 96, 57),
  ("strongblue", 241, 95, 50), ("strongpink", 329, 100, 51), ("sunflower", 45, 100, 54), ("sunfloweryellow", 51, 100, 51),
  ("sunnyyellow", 58, 100, 55), ("sunshineyellow", 59, 100, 61), ("sunyellow", 51, 100, 57), ("swamp", 81, 39, 37),
  ("swampgreen", 68, 100, 26), ("tan", 41, 52, 63), ("tanbrown", 32, 38, 48), ("tangerine", 34, 100, 52),
  ("tangreen", 76, 38, 59), ("taupe", 35, 29, 62), ("tea", 140, 29, 53), ("teagreen", 102, 86, 81),
  ("teal", 175, 97, 29), ("tealblue", 189, 99, 31), ("tealgreen", 155, 63, 39), ("tealish", 172, 68, 44),
  ("tealishgreen", 150, 90, 45), ("terracota", 16, 57, 53), ("terracotta", 17, 57, 51), ("tiffanyblue", 168, 82, 72),
  ("tomato", 8, 86, 54), ("tomatored", 11, 99, 46), ("topaz", 176, 82, 40), ("toupe", 38, 40, 64),
  ("toxicgreen", 102, 73, 52), ("treegreen", 110, 67, 30), ("trueblue", 236, 99, 40), ("truegreen", 118, 95, 30),
  ("turquoise", 173, 94, 39), ("turquoiseblue", 186, 94, 40), ("turquoisegreen", 153, 97, 49), ("turtlegreen", 98, 43, 52),
  ("twilight", 237, 28, 43), ("twilightblue", 209, 85, 26), ("uglyblue", 204, 48, 37), ("uglybrown", 54, 95, 25),
  ("uglygreen", 72, 96, 30), ("uglypink", 350, 47, 63), ("uglypurple", 302, 43, 45), ("uglyyellow", 56, 99, 41),
  ("ultramarine", 251, 100, 35), ("ultramarineblue", 245, 96, 44), ("umber", 34, 100, 35), ("velvet", 320, 87, 25),
  ("vermillion", 10, 91, 50), ("verydarkblue", 239, 100, 10), ("verydarkbrown", 4, 100, 6), ("verydarkgreen", 116, 88, 10),
  ("verydarkpurple", 288, 96, 10), ("verylightblue", 180, 100, 92), ("verylightbrown", 38, 48, 67), ("verylightgreen", 102, 100, 87),
  ("verylightpink", 9, 100, 97), ("verylightpurple", 292, 88, 90), ("verypaleblue", 179, 100, 92), ("verypalegreen", 102, 94, 86),
  ("vibrantblue", 227, 98, 49), ("vibrantgreen", 119, 93, 45), ("vibrantpurple", 287, 97, 44), ("violet", 278, 89, 49),
  ("violetblue", 262, 91, 41), ("violetpink", 300, 96, 68), ("violetred", 329, 100, 32), ("viridian", 158, 66, 34),
  ("vividblue", 234, 100, 54), ("vividgreen", 112, 87, 50), ("vividpurple", 277, 100, 49), ("vomit", 61, 77, 36),
  ("vomitgreen", 69, 96, 32), ("vomityellow", 58, 89, 41), ("warmblue", 235, 67, 58), ("warmbrown", 31, 97, 30),
  ("warmgrey", 19, 8, 55), ("warmpink", 344, 95, 66), ("warmpurple", 303, 53, 38), ("washedoutgreen", 103, 80, 81),
  ("waterblue", 202, 87, 43), ("watermelon", 354, 98, 63), ("weirdgreen", 144, 77, 56), ("wheat", 46, 94, 74),
  ("white", 0, 0, 100), ("windowsblue", 211, 55, 48), ("wine", 331, 98, 25), ("winered", 344, 95, 25),
  ("wintergreen", 148, 95, 55), ("wisteria", 277, 36, 63), ("yellow", 60, 100, 54), ("yellowgreen", 77, 98, 62),
  ("yellowbrown", 49, 100, 36), ("yellowish", 55, 94, 69), ("yellowishbrown", 47, 99, 31), ("yellowishgreen", 74, 82, 48),
  ("yellowishorange", 39, 100, 53), ("yellowishtan", 60, 95, 75), ("yellowochre", 46, 94, 41), ("yelloworange", 42, 99, 50),
  ("yellowtan", 48, 100, 72), ("yellowybrown", 47, 87, 36), ("yellowygreen", 75, 88, 55)]

/-- XKCDcolordict.py 929-1854 `getXKCDcolorname2RGBdict` -/
def xkcdRGB : List (String × Nat) := [
  ("acidgreen", 9436681), ("adobe", 12414024), ("algae", 5549160), ("algaegreen", 2212719), ("almostblack", 462093), ("amber", 16691976),
  ("amethyst", 10182592), ("apple", 7260988), ("applegreen", 7785766), ("apricot", 16757101), ("aqua", 1305289), ("aquablue", 186601),
  ("aquagreen", 1237395), ("aquamarine", 3074235), ("armygreen", 4939030), ("asparagus", 7842646), ("aubergine", 3999540), ("auburn", 10104833),
  ("avocado", 9482548), ("avocadogreen", 8890658), ("azul", 1924588), ("azure", 432883), ("babyblue", 10670078), ("babygreen", 9240478),
  ("babypink", 16758734), ("babypoo", 11243524), ("babypoop", 9665536), ("babypoopgreen", 9410565), ("babypukegreen", 11977734), ("babypurple", 13278199),
  ("babyshitbrown", 11374605), ("babyshitgreen", 8951575), ("banana", 16777086), ("bananayellow", 16449099), ("barbiepink", 16664229), ("barfgreen", 9743362),
  ("barney", 11279800), ("barneypurple", 10486936), ("battleshipgrey", 7044229), ("beige", 15129254), ("berry", 10030923), ("bile", 11911942),
  ("black", 0), ("bland", 11511947), ("blood", 7798785), ("bloodorange", 16665347), ("bloodred", 9961474), ("blue", 213983),
  ("bluegreen", 1022862), ("bluegrey", 7703971), ("bluepurple", 5900015), ("blueberry", 4604310), ("blueblue", 2245319), ("blueviolet", 6096617),
  ("bluewithahintofpurple", 5455046), ("blueygreen", 2863481), ("blueygrey", 9019568), ("blueypurple", 6439367), ("bluish", 2717371), ("bluishgreen", 1091188),
  ("bluishgrey", 7637911), ("bluishpurple", 7355367), ("blurple", 5585356), ("blush", 15900302), ("blushpink", 16679564), ("booger", 10204476),
  ("boogergreen", 9876483), ("bordeaux", 8060972), ("boringgreen", 6533989), ("bottlegreen", 281093), ("brick", 10499619), ("brickorange", 12667401),
  ("brickred", 9376770), ("brightaqua", 784874), ("brightblue", 91644), ("brightcyan", 4324862), ("brightgreen", 130823), ("brightlavender", 13066495),
  ("brightlightblue", 2553853), ("brightlightgreen", 3014228), ("brightlilac", 13197051), ("brightlime", 8912133), ("brightlimegreen", 6684168), ("brightmagenta", 16713960),
  ("brightolive", 10271492), ("brightorange", 16734976), ("brightpink", 16646577), ("brightpurple", 12452861), ("brightred", 16711693), ("brightseagreen", 393126),
  ("brightskyblue", 183550), ("brightteal", 129478), ("brightturquoise", 1048313), ("brightviolet", 11340541), ("brightyellow", 16776449), ("brightyellowgreen", 10354432),
  ("britishracinggreen", 346125), ("bronze", 11041024), ("brown", 6633216), ("browngreen", 7367697), ("browngrey", 9274472), ("brownish", 10251607),
  ("brownishgreen", 6974985), ("brownishgrey", 8812383), ("brownishorange", 13334307), ("brownishpink", 12746361), ("brownishpurple", 7750222), ("brownishred", 10368547),
  ("brownishyellow", 13217795), ("brownorange", 12151042), ("brownred", 9579269), ("brownyellow", 11704069), ("brownygreen", 7302154), ("brownyorange", 13265666),
  ("bruise", 8274033), ("bubblegum", 16739509), ("bubblegumpink", 16738735), ("buff", 16709278), ("burgundy", 6357027), ("burntorange", 12602881),
  ("burntred", 10429189), ("burntsiena", 12014083), ("burntsienna", 11554319), ("burntumber", 10503438), ("burntyellow", 14002953), ("burple", 6828771),
  ("butter", 16777089), ("butterscotch", 16625991), ("butteryellow", 16776564), ("cadetblue", 5141654), ("camel", 13016921), ("camo", 8359758),
  ("camogreen", 5399845), ("camouflagegreen", 4940051), ("canary", 16645987), ("canaryyellow", 16776768), ("candypink", 16737257), ("caramel", 11497225),
  ("carmine", 10289686), ("carnation", 16611727), ("carnationpink", 16744359), ("carolinablue", 9091326), ("celadon", 12516791), ("celery", 12713365),
  ("cement", 10855313), ("cerise", 14552162), ("cerulean", 296401), ("ceruleanblue", 356078), ("charcoal", 3422263), ("charcoalgrey", 3948866),
  ("chartreuse", 12711946), ("cherry", 13566516), ("cherryred", 16187946), ("chestnut", 7612418), ("chocolate", 4004866), ("chocolatebrown", 4266240),
  ("cinnamon", 11292422), ("claret", 6815768), ("clay", 11954768), ("claybrown", 11694397), ("clearblue", 2390781), ("cloudyblue", 11322073),
  ("cobalt", 1984655), ("cobaltblue", 199335), ("cocoa", 8871746), ("coffee", 10912076), ("coolblue", 4818104), ("coolgreen", 3389540),
  ("coolgrey", 9806758), ("copper", 11952933), ("coral", 16538192), ("coralpink", 16736611), ("cornflower", 6978039), ("cornflowerblue", 5337303),
  ("cranberry", 10354746), ("cream", 16777154), ("creme", 16777142), ("crimson", 9175055), ("custard", 16776568), ("cyan", 65535),
  ("dandelion", 16703240), ("dark", 1778737), ("darkaqua", 354667), ("darkaquamarine", 95089), ("darkbeige", 11309922), ("darkblue", 198500),
  ("darkbluegreen", 21065), ("darkbluegrey", 2046797), ("darkbrown", 3415042), ("darkcoral", 13587022), ("darkcream", 16774042), ("darkcyan", 690314),
  ("darkforestgreen", 11524), ("darkfuchsia", 10291033), ("darkgold", 11899920), ("darkgrassgreen", 3702788), ("darkgreen", 346375), ("darkgreenblue", 2057047),
  ("darkgrey", 3553079), ("darkgreyblue", 2704987), ("darkhotpink", 14221670), ("darkindigo", 2034004), ("darkishblue", 82306), ("darkishgreen", 2653239),
  ("darkishpink", 14304893), ("darkishpurple", 7674227), ("darkishred", 11076360), ("darkkhaki", 10194773), ("darklavender", 8742808), ("darklilac", 10251685),
  ("darklime", 8697601), ("darklimegreen", 8305921), ("darkmagenta", 9830486), ("darkmaroon", 3932168), ("darkmauve", 8866914), ("darkmint", 4767858),
  ("darkmintgreen", 2146419), ("darkmustard", 11045125), ("darknavy", 1077), ("darknavyblue", 558), ("darkolive", 3620354), ("darkolivegreen", 3951875),
  ("darkorange", 12996866), ("darkpastelgreen", 5680727), ("darkpeach", 14581341), ("darkperiwinkle", 6709201), ("darkpink", 13320555), ("darkplum", 4129068),
  ("darkpurple", 3475006), ("darkred", 8650752), ("darkrose", 11880541), ("darkroyalblue", 132719), ("darksage", 5866838), ("darksalmon", 13130323),
  ("darksand", 11046745), ("darkseafoam", 2078074), ("darkseafoamgreen", 4108150), ("darkseagreen", 1148765), ("darkskyblue", 4493028), ("darkslateblue", 2180961),
  ("darktan", 11503690), ("darktaupe", 8349774), ("darkteal", 85326), ("darkturquoise", 285786), ("darkviolet", 3408191), ("darkyellow", 14005770),
  ("darkyellowgreen", 7507714), ("deepaqua", 555135), ("deepblue", 262771), ("deepbrown", 4260352), ("deepgreen", 153871), ("deeplavender", 9264823),
  ("deeplilac", 9858749), ("deepmagenta", 10486364), ("deeporange", 14437633), ("deeppink", 13304162), ("deeppurple", 3539263), ("deepred", 10093056),
  ("deeprose", 13059943), ("deepseablue", 87170), ("deepskyblue", 882168), ("deepteal", 21850), ("deepturquoise", 95092), ("deepviolet", 4785736),
  ("denim", 3892108), ("denimblue", 3890066), ("desert", 13413728), ("diarrhea", 10453763), ("dirt", 9072197), ("dirtbrown", 8611129),
  ("dirtyblue", 4162205), ("dirtygreen", 6716972), ("dirtyorange", 13137414), ("dirtypink", 13269888), ("dirtypurple", 7555685), ("dirtyyellow", 13485322),
  ("dodgerblue", 4096764), ("drab", 8553284), ("drabgreen", 7640401), ("driedblood", 4915457), ("duckeggblue", 12844020), ("dullblue", 4814236),
  ("dullbrown", 8875595), ("dullgreen", 7644770), ("dullorange", 14190139), ("dullpink", 13993629), ("dullpurple", 8673662), ("dullred", 12271423),
  ("dullteal", 6266511), ("dullyellow", 15653979), ("dusk", 5133441), ("duskblue", 2511757), ("duskyblue", 4677524), ("duskypink", 13400715),
  ("duskypurple", 9001851), ("duskyrose", 12216435), ("dust", 11704686), ("dustyblue", 5932717), ("dustygreen", 7776627), ("dustylavender", 11306664),
  ("dustyorange", 15762234), ("dustypink", 13994644), ("dustypurple", 8544135), ("dustyred", 12142670), ("dustyrose", 12612474), ("dustyteal", 5017733),
  ("earth", 10642750), ("eastergreen", 9239934), ("easterpurple", 12612094), ("ecru", 16711626), ("eggplant", 3672117), ("eggplantpurple", 4392257),
  ("eggshell", 16776388), ("eggshellblue", 12910583), ("electricblue", 414463), ("electricgreen", 2227213), ("electriclime", 11075332), ("electricpink", 16712848),
  ("electricpurple", 11150335), ("emerald", 106569), ("emeraldgreen", 167710), ("evergreen", 345898), ("fadedblue", 6655163), ("fadedgreen", 8106612),
  ("fadedorange", 15766605), ("fadedpink", 14589356), ("fadedpurple", 9531033), ("fadedred", 13846862), ("fadedyellow", 16711551), ("fawn", 13610875),
  ("fern", 6531408), ("ferngreen", 5541188), ("fireenginered", 16646146), ("flatblue", 3961768), ("flatgreen", 6921548), ("fluorescentgreen", 589576),
  ("flurogreen", 720642), ("foamgreen", 9502121), ("forest", 742665), ("forestgreen", 411404), ("forrestgreen", 1393670), ("frenchblue", 4418477),
  ("freshgreen", 6936655), ("froggreen", 5815304), ("fuchsia", 15535577), ("gold", 14398476), ("golden", 16105219), ("goldenbrown", 11696641),
  ("goldenrod", 16366600), ("goldenyellow", 16696853), ("grape", 7091297), ("grapefruit", 16603478), ("grapepurple", 6100049), ("grass", 6073389),
  ("grassgreen", 4168459), ("grassygreen", 4299779), ("green", 1421338), ("greenblue", 114829), ("greenyellow", 11914760), ("greenapple", 6216735),
  ("greenbrown", 5524995), ("greengrey", 7836271), ("greenish", 4236136), ("greenishbeige", 13226361), ("greenishblue", 756615), ("greenishbrown", 6906130),
  ("greenishcyan", 2817719), ("greenishgrey", 9875085), ("greenishtan", 12372858), ("greenishteal", 3325828), ("greenishturquoise", 64432), ("greenishyellow", 13499650),
  ("greenteal", 832887), ("greenyblue", 4371349), ("greenybrown", 6905862), ("greenygrey", 8298618), ("greenyyellow", 13039624), ("grey", 9606545),
  ("greyblue", 6585742), ("greygreen", 8823165), ("greybrown", 8351827), ("greyish", 11052181), ("greyishblue", 6193565), ("greyishbrown", 8022607),
  ("greyishgreen", 8562301), ("greyishpink", 13143444), ("greyishpurple", 8941969), ("greyishteal", 7446417), ("greypink", 12816539), ("greypurple", 8547724),
  ("greyteal", 6200202), ("grossgreen", 10534678), ("gunmetal", 5464679), ("hazel", 9336344), ("heather", 10781868), ("heliotrope", 14241781),
  ("highlightergreen", 1833990), ("hospitalgreen", 10216874), ("hotgreen", 2490153), ("hotmagenta", 16057545), ("hotpink", 16712333), ("hotpurple", 13304053),
  ("huntergreen", 737288), ("ice", 14090234), ("iceblue", 14155774), ("ickygreen", 9416226), ("indianred", 8719876), ("indigo", 3670658),
  ("indigoblue", 3807409), ("iris", 6445252), ("irishgreen", 103721), ("ivory", 16777163), ("jade", 2074484), ("jadegreen", 2862954),
  ("junglegreen", 295491), ("kelleygreen", 37687), ("kellygreen", 174894), ("kermitgreen", 6074880), ("keylime", 11468654), ("khaki", 11183714),
  ("khakigreen", 7505465), ("kiwi", 10284867), ("kiwigreen", 9364799), ("lavender", 13082607), ("lavenderblue", 9144568), ("lavenderpink", 14517719),
  ("lawngreen", 5088265), ("leaf", 7449140), ("leafgreen", 6072580), ("leafygreen", 5355323), ("leather", 11301940), ("lemon", 16645970),
  ("lemongreen", 11401218), ("lemonlime", 12582440), ("lemonyellow", 16645944), ("lichen", 9418363), ("lightaqua", 9240539), ("lightaquamarine", 8125895),
  ("lightbeige", 16776886), ("lightblue", 8112374), ("lightbluegreen", 8321971), ("lightbluegrey", 12044770), ("lightbluishgreen", 7798184), ("lightbrightgreen", 5504604),
  ("lightbrown", 11370832), ("lightburgundy", 11026779), ("lightcyan", 11337724), ("lighteggplant", 8996229), ("lightergreen", 7732579), ("lighterpurple", 10836724),
  ("lightforestgreen", 5214547), ("lightgold", 16637020), ("lightgrassgreen", 10155876), ("lightgreen", 7798651), ("lightgreenblue", 5700770), ("lightgreenishblue", 6551476),
  ("lightgrey", 14212310), ("lightgreyblue", 10337492), ("lightgreygreen", 12050849), ("lightindigo", 7166671), ("lightishblue", 4029181), ("lightishgreen", 6414688),
  ("lightishpurple", 10834662), ("lightishred", 16658250), ("lightkhaki", 15135394), ("lightlavendar", 15712510), ("lightlavender", 14665214), ("lightlightblue", 13303803),
  ("lightlightgreen", 13172656), ("lightlilac", 15583487), ("lightlime", 11468140), ("lightlimegreen", 12189542), ("lightmagenta", 16408567), ("lightmaroon", 10635351),
  ("lightmauve", 12751521), ("lightmint", 11993019), ("lightmintgreen", 10943410), ("lightmossgreen", 10930293), ("lightmustard", 16242016), ("lightnavy", 1396868),
  ("lightnavyblue", 3037832), ("lightneongreen", 5176660), ("lightolive", 11321193), ("lightolivegreen", 10796636), ("lightorange", 16624200), ("lightpastelgreen", 11729829),
  ("lightpeach", 16767153), ("lightpeagreen", 12910210), ("lightperiwinkle", 12699388), ("lightpink", 16765407), ("lightplum", 10311555), ("lightpurple", 12548086),
  ("lightred", 16729932), ("lightrose", 16762315), ("lightroyalblue", 3813118), ("lightsage", 12381356), ("lightsalmon", 16689555), ("lightseafoam", 10550975),
  ("lightseafoamgreen", 11009973), ("lightseagreen", 10024624), ("lightskyblue", 13040895), ("lighttan", 16510636), ("lightteal", 9495745), ("lightturquoise", 8320204),
  ("lighturple", 11759606), ("lightviolet", 14071036), ("lightyellow", 16776826), ("lightyellowgreen", 13434239), ("lightyellowishgreen", 12779401), ("lilac", 13542141),
  ("liliac", 12881661), ("lime", 11206450), ("limegreen", 9043461), ("limeyellow", 13696541), ("lipstick", 13965134), ("lipstickred", 12583471),
  ("macaroniandcheese", 15709237), ("magenta", 12714104), ("mahogany", 4849920), ("maize", 16044116), ("mango", 16754219), ("manilla", 16775814),
  ("marigold", 16564230), ("marine", 274016), ("marineblue", 79978), ("maroon", 6619169), ("mauve", 11432321), ("mediumblue", 2912187),
  ("mediumbrown", 8343826), ("mediumgreen", 3779912), ("mediumgrey", 8224636), ("mediumpink", 15950230), ("mediumpurple", 10372002), ("melon", 16742485),
  ("merlot", 7536697), ("metallicblue", 5206926), ("midblue", 2583219), ("midgreen", 5285703), ("midnight", 196909), ("midnightblue", 131125),
  ("midnightpurple", 2621751), ("militarygreen", 6716478), ("milkchocolate", 8343070), ("mint", 10485424), ("mintgreen", 9437087), ("mintygreen", 784253),
  ("mocha", 10319441), ("moss", 7772504), ("mossgreen", 6654776), ("mossygreen", 6523687), ("mud", 7560210), ("mudbrown", 6309391),
  ("muddybrown", 8939526), ("muddygreen", 6648882), ("muddyyellow", 12561413), ("mudgreen", 6317570), ("mulberry", 9570894), ("murkygreen", 7109134),
  ("mushroom", 12230280), ("mustard", 13546241), ("mustardbrown", 11304452), ("mustardgreen", 11056388), ("mustardyellow", 13810954), ("mutedblue", 3895711),
  ("mutedgreen", 6266962), ("mutedpink", 13727375), ("mutedpurple", 8412039), ("nastygreen", 7385663), ("navy", 70974), ("navyblue", 4422),
  ("navygreen", 3494666), ("neonblue", 317951), ("neongreen", 851724), ("neonpink", 16646554), ("neonpurple", 12325886), ("neonred", 16713530),
  ("neonyellow", 13631236), ("niceblue", 1079984), ("nightblue", 262984), ("ocean", 97170), ("oceanblue", 225692), ("oceangreen", 4036979),
  ("ocher", 12557068), ("ochre", 12554245), ("ocre", 13016068), ("offblue", 5670062), ("offgreen", 7054163), ("offwhite", 16777188),
  ("offyellow", 15856447), ("oldpink", 13072774), ("oldrose", 13139849), ("olive", 7238926), ("olivebrown", 6575107), ("olivedrab", 7304754),
  ("olivegreen", 6781444), ("oliveyellow", 12760841), ("orange", 16347910), ("orangebrown", 12477440), ("orangeish", 16616777), ("orangepink", 16740178),
  ("orangered", 16663055), ("orangeybrown", 11624450), ("orangeyellow", 16755969), ("orangeyred", 16400932), ("orangeyyellow", 16627989), ("orangish", 16548426),
  ("orangishbrown", 11689731), ("orangishred", 16004613), ("orchid", 13137348), ("pale", 16775632), ("paleaqua", 12124139), ("paleblue", 13696766),
  ("palebrown", 11637102), ("palecyan", 12058618), ("palegold", 16637548), ("palegreen", 13106613), ("palegrey", 16645630), ("palelavender", 15650814),
  ("palelightgreen", 11664537), ("palelilac", 14994431), ("palelime", 12516723), ("palelimegreen", 11665253), ("palemagenta", 14116781), ("palemauve", 16699644),
  ("paleolive", 12176513), ("paleolivegreen", 11653755), ("paleorange", 16754518), ("palepeach", 16770477), ("palepink", 16764892), ("palepurple", 12030164),
  ("palered", 14242893), ("palerose", 16630213), ("palesalmon", 16757146), ("paleskyblue", 12449534), ("paleteal", 8571826), ("paleturquoise", 10877909),
  ("paleviolet", 13545210), ("paleyellow", 16777092), ("parchment", 16710831), ("pastelblue", 10665982), ("pastelgreen", 11599773), ("pastelorange", 16750159),
  ("pastelpink", 16759501), ("pastelpurple", 13279487), ("pastelred", 14374998), ("pastelyellow", 16776817), ("pea", 10796832), ("peach", 16756860),
  ("peachypink", 16751242), ("peacockblue", 92053), ("peagreen", 9349906), ("pear", 13367391), ("peasoup", 9607425), ("peasoupgreen", 9741847),
  ("periwinkle", 9339646), ("periwinkleblue", 9411067), ("perrywinkle", 9407719), ("petrol", 24426), ("pigpink", 15175333), ("pine", 2841908),
  ("pinegreen", 673822), ("pink", 16744896), ("pinkpurple", 15670759), ("pinkish", 13920894), ("pinkishbrown", 11629153), ("pinkishgrey", 13151401),
  ("pinkishorange", 16740940), ("pinkishpurple", 14043351), ("pinkishred", 15797317), ("pinkishtan", 14261122), ("pinkred", 16057679), ("pinky", 16549546),
  ("pinkypurple", 13192382), ("pinkyred", 16524871), ("pissyellow", 14538264), ("pistachio", 12647051), ("plum", 5771073), ("plumpurple", 5113168),
  ("poisongreen", 4259092), ("poo", 9401091), ("poobrown", 8937217), ("poop", 8347136), ("poopbrown", 8018177), ("poopgreen", 7306240),
  ("powderblue", 11653628), ("powderpink", 16757456), ("primaryblue", 525561), ("prussianblue", 17783), ("puce", 10845778), ("puke", 10855682),
  ("pukebrown", 9729798), ("pukegreen", 10137095), ("pukeyellow", 12762638), ("pumpkin", 14776065), ("pumpkinorange", 16481543), ("pureblue", 132066),
  ("purple", 8265372), ("purpleblue", 6103504), ("purplepink", 14099934), ("purplebrown", 6765119), ("purplegrey", 8810373), ("purpleish", 9983629),
  ("purpleishblue", 6373615), ("purpleishpink", 14634696), ("purplered", 10027335), ("purpley", 8869604), ("purpleyblue", 6239463), ("purpleygrey", 9731732),
  ("purpleypink", 13122745), ("purplish", 9721484), ("purplishblue", 6299385), ("purplishbrown", 7029319), ("purplishgrey", 8022143), ("purplishpink", 13524398),
  ("purplishred", 11535691), ("purply", 9977778), ("purplyblue", 6691566), ("purplypink", 15758822), ("putty", 12496522), ("racinggreen", 83456),
  ("radioactivegreen", 2947615), ("raspberry", 11534665), ("rawsienna", 10117632), ("rawumber", 10968585), ("reallylightblue", 13959167), ("red", 15007744),
  ("redbrown", 9121302), ("reddish", 12862016), ("reddishbrown", 8334090), ("reddishgrey", 10057072), ("reddishorange", 16271388), ("reddishpink", 16657492),
  ("reddishpurple", 9505105), ("reddybrown", 7213061), ("redorange", 16595974), ("redpink", 16394837), ("redpurple", 8521543), ("redviolet", 10355048),
  ("redwine", 9175092), ("richblue", 138233), ("richpurple", 7471192), ("robineggblue", 9105918), ("robinsegg", 7204349), ("robinseggblue", 10022905),
  ("rosa", 16680612), ("rose", 13591157), ("rosepink", 16222106), ("rosered", 12452156), ("rosypink", 16148622), ("rouge", 11211321),
  ("royal", 792467), ("royalblue", 328874), ("royalpurple", 4915310), ("ruby", 13238599), ("russet", 10565893), ("rust", 11025417),
  ("rustbrown", 9122051), ("rustorange", 12866824), ("rustred", 11151108), ("rustyorange", 13457673), ("rustyred", 11480845), ("saffron", 16691721),
  ("sage", 8892019), ("sagegreen", 8958840), ("salmon", 16742764), ("salmonpink", 16677756), ("sand", 14862966), ("sandbrown", 13346144),
  ("sandstone", 13217396), ("sandy", 15850106), ("sandybrown", 12887649), ("sandyellow", 16572774), ("sandyyellow", 16641651), ("sapgreen", 6064917),
  ("sapphire", 2177195), ("scarlet", 12452121), ("sea", 3971474), ("seablue", 291989), ("seafoam", 8452525), ("seafoamblue", 7918006),
  ("seafoamgreen", 8059307), ("seagreen", 5504161), ("seaweed", 1626491), ("seaweedgreen", 3517803), ("sepia", 9985579), ("shamrock", 111692),
  ("shamrockgreen", 180557), ("shit", 8347392), ("shitbrown", 8083460), ("shitgreen", 7700480), ("shockingpink", 16646818), ("sickgreen", 10336556),
  ("sicklygreen", 9744924), ("sicklyyellow", 13689897), ("sienna", 11097630), ("silver", 12962247), ("sky", 8571644), ("skyblue", 7715837),
  ("slate", 5334386), ("slateblue", 5995673), ("slategreen", 6655341), ("slategrey", 5858669), ("slimegreen", 10079236), ("snot", 11320077),
  ("snotgreen", 10338560), ("softblue", 6588650), ("softgreen", 7324278), ("softpink", 16625856), ("softpurple", 10907573), ("spearmint", 2029686),
  ("springgreen", 11139441), ("spruce", 679736), ("squash", 15903509), ("steel", 7570837), ("steelblue", 5930394), ("steelgrey", 7307914),
  ("stone", 11380103), ("stormyblue", 5274524), ("straw", 16578169), ("strawberry", 16460099), ("strongblue", 788215), ("strongpink", 16713609),
  ("sunflower", 16762130), ("sunfloweryellow", 16767491), ("sunnyyellow", 16775447), ("sunshineyellow", 16776503), ("sunyellow", 16768802), ("swamp", 6914873),
  ("swampgreen", 7636224), ("tan", 13742703), ("tanbrown", 11238988), ("tangerine", 16749576), ("tangreen", 11124336), ("taupe", 12165761),
  ("tea", 6663036), ("teagreen", 12449955), ("teal", 168838), ("tealblue", 100511), ("tealgreen", 2466671), ("tealish", 2407592),
  ("tealishgreen", 842867), ("terracota", 13330499), ("terracotta", 13198395), ("tiffanyblue", 8123098), ("tomato", 15679526), ("tomatored", 15478017),
  ("topaz", 1293231), ("toupe", 13085821), ("toxicgreen", 6413866), ("treegreen", 2784793), ("trueblue", 69580), ("truegreen", 562180),
  ("turquoise", 443052), ("turquoiseblue", 438724), ("turquoisegreen", 324745), ("turtlegreen", 7714895), ("twilight", 5132683), ("twilightblue", 672634),
  ("uglyblue", 3237514), ("uglybrown", 8220931), ("uglygreen", 8034051), ("uglypink", 13464964), ("uglypurple", 10764960), ("uglyyellow", 13680897),
  ("ultramarine", 2097329), ("ultramarineblue", 1574363), ("umber", 11691008), ("velvet", 7669841), ("vermillion", 16003596), ("verydarkblue", 307),
  ("verydarkbrown", 1901056), ("verydarkgreen", 404995), ("verydarkpurple", 2752820), ("verylightblue", 14024703), ("verylightbrown", 13874819), ("verylightgreen", 13762493),
  ("verylightpink", 16774386), ("verylightpurple", 16174844), ("verypaleblue", 14090238), ("verypalegreen", 13630908), ("vibrantblue", 211448), ("vibrantgreen", 711944),
  ("vibrantpurple", 11338718), ("violet", 10096362), ("violetblue", 5311177), ("violetpink", 16474108), ("violetred", 10813525), ("viridian", 2003303),
  ("vividblue", 1388287), ("vividgreen", 3141392), ("vividpurple", 10027258), ("vomit", 10658837), ("vomitgreen", 9019907), ("vomityellow", 13091084),
  ("warmblue", 4937691), ("warmbrown", 9850370), ("warmgrey", 9931396), ("warmpink", 16471425), ("warmpurple", 9776783), ("washedoutgreen", 12383654),
  ("waterblue", 952268), ("watermelon", 16598617), ("weirdgreen", 3859839), ("wheat", 16506238), ("white", 16777215), ("windowsblue", 3635391),
  ("wine", 8388927), ("winered", 8061731), ("wintergreen", 2161030), ("wisteria", 11042242), ("yellow", 16776980), ("yellowgreen", 13172029),
  ("yellowbrown", 12030976), ("yellowish", 16445030), ("yellowishbrown", 10189313), ("yellowishgreen", 11590934), ("yellowishorange", 16755471), ("yellowishtan", 16579713),
  ("yellowochre", 13344006), ("yelloworange", 16560129), ("yellowtan", 16769902), ("yellowybrown", 11438860), ("yellowygreen", 12579112)]

/-- XKCDcolordict.py 1857-2782 `getXKCDRGBfactors`: the decimal numbers as written, times 10 ^ 6 -/
def xkcdFactors : List (String × Nat × Nat × Nat) := [
  ("acidgreen", 560784, 996078, 35294), ("adobe", 741176, 423529, 282353), ("algae", 329412, 674510, 407843), ("algaegreen", 129412, 764706, 435294),
  ("almostblack", 27451, 50980, 50980), ("amber", 996078, 701961, 31373), ("amethyst", 607843, 372549, 752941), ("apple", 431373, 796078, 235294),
  ("applegreen", 462745, 803922, 149020), ("apricot", 1000000, 694118, 427451), ("aqua", 74510, 917647, 788235), ("aquablue", 7843, 847059, 913725),
  ("aquagreen", 70588, 882353, 576471), ("aquamarine", 180392, 909804, 733333), ("armygreen", 294118, 364706, 86275), ("asparagus", 466667, 670588, 337255),
  ("aubergine", 239216, 27451, 203922), ("auburn", 603922, 188235, 3922), ("avocado", 564706, 694118, 203922), ("avocadogreen", 529412, 662745, 133333),
  ("azul", 113725, 364706, 925490), ("azure", 23529, 603922, 952941), ("babyblue", 635294, 811765, 996078), ("babygreen", 549020, 1000000, 619608),
  ("babypink", 1000000, 717647, 807843), ("babypoo", 670588, 564706, 15686), ("babypoop", 576471, 486275, 0), ("babypoopgreen", 560784, 596078, 19608),
  ("babypukegreen", 713725, 768627, 23529), ("babypurple", 792157, 607843, 968627), ("babyshitbrown", 678431, 564706, 50980), ("babyshitgreen", 533333, 592157, 90196),
  ("banana", 1000000, 1000000, 494118), ("bananayellow", 980392, 996078, 294118), ("barbiepink", 996078, 274510, 647059), ("barfgreen", 580392, 674510, 7843),
  ("barney", 674510, 113725, 721569), ("barneypurple", 627451, 15686, 596078), ("battleshipgrey", 419608, 486275, 521569), ("beige", 901961, 854902, 650980),
  ("berry", 600000, 58824, 294118), ("bile", 709804, 764706, 23529), ("black", 0, 0, 0), ("bland", 686275, 658824, 545098),
  ("blood", 466667, 0, 3922), ("bloodorange", 996078, 294118, 11765), ("bloodred", 596078, 0, 7843), ("blue", 11765, 262745, 874510),
  ("bluegreen", 58824, 607843, 556863), ("bluegrey", 458824, 552941, 639216), ("bluepurple", 352941, 23529, 937255), ("blueberry", 274510, 254902, 588235),
  ("blueblue", 133333, 258824, 780392), ("blueviolet", 364706, 23529, 913725), ("bluewithahintofpurple", 325490, 235294, 776471), ("blueygreen", 168627, 694118, 474510),
  ("blueygrey", 537255, 627451, 690196), ("blueypurple", 384314, 254902, 780392), ("bluish", 160784, 462745, 733333), ("bluishgreen", 62745, 650980, 454902),
  ("bluishgrey", 454902, 545098, 592157), ("bluishpurple", 439216, 231373, 905882), ("blurple", 333333, 223529, 800000), ("blush", 949020, 619608, 556863),
  ("blushpink", 996078, 509804, 549020), ("booger", 607843, 709804, 235294), ("boogergreen", 588235, 705882, 11765), ("bordeaux", 482353, 0, 172549),
  ("boringgreen", 388235, 701961, 396078), ("bottlegreen", 15686, 290196, 19608), ("brick", 627451, 211765, 137255), ("brickorange", 756863, 290196, 35294),
  ("brickred", 560784, 78431, 7843), ("brightaqua", 43137, 976471, 917647), ("brightblue", 3922, 396078, 988235), ("brightcyan", 254902, 992157, 996078),
  ("brightgreen", 3922, 1000000, 27451), ("brightlavender", 780392, 376471, 1000000), ("brightlightblue", 149020, 968627, 992157), ("brightlightgreen", 176471, 996078, 329412),
  ("brightlilac", 788235, 368627, 984314), ("brightlime", 529412, 992157, 19608), ("brightlimegreen", 396078, 996078, 31373), ("brightmagenta", 1000000, 31373, 909804),
  ("brightolive", 611765, 733333, 15686), ("brightorange", 1000000, 356863, 0), ("brightpink", 996078, 3922, 694118), ("brightpurple", 745098, 11765, 992157),
  ("brightred", 1000000, 0, 50980), ("brightseagreen", 19608, 1000000, 650980), ("brightskyblue", 7843, 800000, 996078), ("brightteal", 3922, 976471, 776471),
  ("brightturquoise", 58824, 996078, 976471), ("brightviolet", 678431, 39216, 992157), ("brightyellow", 1000000, 992157, 3922), ("brightyellowgreen", 615686, 1000000, 0),
  ("britishracinggreen", 19608, 282353, 50980), ("bronze", 658824, 474510, 0), ("brown", 396078, 215686, 0), ("browngreen", 439216, 423529, 66667),
  ("browngrey", 552941, 517647, 407843), ("brownish", 611765, 427451, 341176), ("brownishgreen", 415686, 431373, 35294), ("brownishgrey", 525490, 466667, 372549),
  ("brownishorange", 796078, 466667, 137255), ("brownishpink", 760784, 494118, 474510), ("brownishpurple", 462745, 258824, 305882), ("brownishred", 619608, 211765, 137255),
  ("brownishyellow", 788235, 690196, 11765), ("brownorange", 725490, 411765, 7843), ("brownred", 572549, 168627, 19608), ("brownyellow", 698039, 592157, 19608),
  ("brownygreen", 435294, 423529, 39216), ("brownyorange", 792157, 419608, 7843), ("bruise", 494118, 250980, 443137), ("bubblegum", 1000000, 423529, 709804),
  ("bubblegumpink", 1000000, 411765, 686275), ("buff", 996078, 964706, 619608), ("burgundy", 380392, 0, 137255), ("burntorange", 752941, 305882, 3922),
  ("burntred", 623529, 137255, 19608), ("burntsiena", 717647, 321569, 11765), ("burntsienna", 690196, 305882, 58824), ("burntumber", 627451, 270588, 54902),
  ("burntyellow", 835294, 670588, 35294), ("burple", 407843, 196078, 890196), ("butter", 1000000, 1000000, 505882), ("butterscotch", 992157, 694118, 278431),
  ("butteryellow", 1000000, 992157, 454902), ("cadetblue", 305882, 454902, 588235), ("camel", 776471, 623529, 349020), ("camo", 498039, 560784, 305882),
  ("camogreen", 321569, 396078, 145098), ("camouflagegreen", 294118, 380392, 74510), ("canary", 992157, 1000000, 388235), ("canaryyellow", 1000000, 996078, 250980),
  ("candypink", 1000000, 388235, 913725), ("caramel", 686275, 435294, 35294), ("carmine", 615686, 7843, 86275), ("carnation", 992157, 474510, 560784),
  ("carnationpink", 1000000, 498039, 654902), ("carolinablue", 541176, 721569, 996078), ("celadon", 745098, 992157, 717647), ("celery", 756863, 992157, 584314),
  ("cement", 647059, 639216, 568627), ("cerise", 870588, 47059, 384314), ("cerulean", 15686, 521569, 819608), ("ceruleanblue", 19608, 431373, 933333),
  ("charcoal", 203922, 219608, 215686), ("charcoalgrey", 235294, 254902, 258824), ("chartreuse", 756863, 972549, 39216), ("cherry", 811765, 7843, 203922),
  ("cherryred", 968627, 7843, 164706), ("chestnut", 454902, 156863, 7843), ("chocolate", 239216, 109804, 7843), ("chocolatebrown", 254902, 98039, 0),
  ("cinnamon", 674510, 309804, 23529), ("claret", 407843, 0, 94118), ("clay", 713725, 415686, 313725), ("claybrown", 698039, 443137, 239216),
  ("clearblue", 141176, 478431, 992157), ("cloudyblue", 674510, 760784, 850980), ("cobalt", 117647, 282353, 560784), ("cobaltblue", 11765, 39216, 654902),
  ("cocoa", 529412, 372549, 258824), ("coffee", 650980, 505882, 298039), ("coolblue", 286275, 517647, 721569), ("coolgreen", 200000, 721569, 392157),
  ("coolgrey", 584314, 639216, 650980), ("copper", 713725, 388235, 145098), ("coral", 988235, 352941, 313725), ("coralpink", 1000000, 380392, 388235),
  ("cornflower", 415686, 474510, 968627), ("cornflowerblue", 317647, 439216, 843137), ("cranberry", 619608, 0, 227451), ("cream", 1000000, 1000000, 760784),
  ("creme", 1000000, 1000000, 713725), ("crimson", 549020, 0, 58824), ("custard", 1000000, 992157, 470588), ("cyan", 0, 1000000, 1000000),
  ("dandelion", 996078, 874510, 31373), ("dark", 105882, 141176, 192157), ("darkaqua", 19608, 411765, 419608), ("darkaquamarine", 3922, 450980, 443137),
  ("darkbeige", 674510, 576471, 384314), ("darkblue", 11765, 27451, 392157), ("darkbluegreen", 0, 321569, 286275), ("darkbluegrey", 121569, 231373, 301961),
  ("darkbrown", 203922, 109804, 7843), ("darkcoral", 811765, 321569, 305882), ("darkcream", 1000000, 952941, 603922), ("darkcyan", 39216, 533333, 541176),
  ("darkforestgreen", 0, 176471, 15686), ("darkfuchsia", 615686, 27451, 349020), ("darkgold", 709804, 580392, 62745), ("darkgrassgreen", 219608, 501961, 15686),
  ("darkgreen", 19608, 286275, 27451), ("darkgreenblue", 121569, 388235, 341176), ("darkgrey", 211765, 215686, 215686), ("darkgreyblue", 160784, 274510, 356863),
  ("darkhotpink", 850980, 3922, 400000), ("darkindigo", 121569, 35294, 329412), ("darkishblue", 3922, 254902, 509804), ("darkishgreen", 156863, 486275, 215686),
  ("darkishpink", 854902, 274510, 490196), ("darkishpurple", 458824, 98039, 450980), ("darkishred", 662745, 11765, 31373), ("darkkhaki", 607843, 560784, 333333),
  ("darklavender", 521569, 403922, 596078), ("darklilac", 611765, 427451, 647059), ("darklime", 517647, 717647, 3922), ("darklimegreen", 494118, 741176, 3922),
  ("darkmagenta", 588235, 0, 337255), ("darkmaroon", 235294, 0, 31373), ("darkmauve", 529412, 298039, 384314), ("darkmint", 282353, 752941, 447059),
  ("darkmintgreen", 125490, 752941, 450980), ("darkmustard", 658824, 537255, 19608), ("darknavy", 0, 15686, 207843), ("darknavyblue", 0, 7843, 180392),
  ("darkolive", 215686, 243137, 7843), ("darkolivegreen", 235294, 301961, 11765), ("darkorange", 776471, 317647, 7843), ("darkpastelgreen", 337255, 682353, 341176),
  ("darkpeach", 870588, 494118, 364706), ("darkperiwinkle", 400000, 372549, 819608), ("darkpink", 796078, 254902, 419608), ("darkplum", 247059, 3922, 172549),
  ("darkpurple", 207843, 23529, 243137), ("darkred", 517647, 0, 0), ("darkrose", 709804, 282353, 364706), ("darkroyalblue", 7843, 23529, 435294),
  ("darksage", 349020, 521569, 337255), ("darksalmon", 784314, 352941, 325490), ("darksand", 658824, 560784, 349020), ("darkseafoam", 121569, 709804, 478431),
  ("darkseafoamgreen", 243137, 686275, 462745), ("darkseagreen", 66667, 529412, 364706), ("darkskyblue", 266667, 556863, 894118), ("darkslateblue", 129412, 278431, 380392),
  ("darktan", 686275, 533333, 290196), ("darktaupe", 498039, 407843, 305882), ("darkteal", 3922, 301961, 305882), ("darkturquoise", 15686, 360784, 352941),
  ("darkviolet", 203922, 3922, 247059), ("darkyellow", 835294, 713725, 39216), ("darkyellowgreen", 447059, 560784, 7843), ("deepaqua", 31373, 470588, 498039),
  ("deepblue", 15686, 7843, 450980), ("deepbrown", 254902, 7843, 0), ("deepgreen", 7843, 349020, 58824), ("deeplavender", 552941, 368627, 717647),
  ("deeplilac", 588235, 431373, 741176), ("deepmagenta", 627451, 7843, 360784), ("deeporange", 862745, 301961, 3922), ("deeppink", 796078, 3922, 384314),
  ("deeppurple", 211765, 3922, 247059), ("deepred", 603922, 7843, 0), ("deeprose", 780392, 278431, 403922), ("deepseablue", 3922, 329412, 509804),
  ("deepskyblue", 50980, 458824, 972549), ("deepteal", 0, 333333, 352941), ("deepturquoise", 3922, 450980, 454902), ("deepviolet", 286275, 23529, 282353),
  ("denim", 231373, 388235, 549020), ("denimblue", 231373, 356863, 572549), ("desert", 800000, 678431, 376471), ("diarrhea", 623529, 513725, 11765),
  ("dirt", 541176, 431373, 270588), ("dirtbrown", 513725, 396078, 223529), ("dirtyblue", 247059, 509804, 615686), ("dirtygreen", 400000, 494118, 172549),
  ("dirtyorange", 784314, 462745, 23529), ("dirtypink", 792157, 482353, 501961), ("dirtypurple", 450980, 290196, 396078), ("dirtyyellow", 803922, 772549, 39216),
  ("dodgerblue", 243137, 509804, 988235), ("drab", 509804, 513725, 266667), ("drabgreen", 454902, 584314, 317647), ("driedblood", 294118, 3922, 3922),
  ("duckeggblue", 764706, 984314, 956863), ("dullblue", 286275, 458824, 611765), ("dullbrown", 529412, 431373, 294118), ("dullgreen", 454902, 650980, 384314),
  ("dullorange", 847059, 525490, 231373), ("dullpink", 835294, 525490, 615686), ("dullpurple", 517647, 349020, 494118), ("dullred", 733333, 247059, 247059),
  ("dullteal", 372549, 619608, 560784), ("dullyellow", 933333, 862745, 356863), ("dusk", 305882, 329412, 505882), ("duskblue", 149020, 325490, 552941),
  ("duskyblue", 278431, 372549, 580392), ("duskypink", 800000, 478431, 545098), ("duskypurple", 537255, 356863, 482353), ("duskyrose", 729412, 407843, 450980),
  ("dust", 698039, 600000, 431373), ("dustyblue", 352941, 525490, 678431), ("dustygreen", 462745, 662745, 450980), ("dustylavender", 674510, 525490, 658824),
  ("dustyorange", 941176, 513725, 227451), ("dustypink", 835294, 541176, 580392), ("dustypurple", 509804, 372549, 529412), ("dustyred", 725490, 282353, 305882),
  ("dustyrose", 752941, 450980, 478431), ("dustyteal", 298039, 564706, 521569), ("earth", 635294, 396078, 243137), ("eastergreen", 549020, 992157, 494118),
  ("easterpurple", 752941, 443137, 996078), ("ecru", 996078, 1000000, 792157), ("eggplant", 219608, 31373, 207843), ("eggplantpurple", 262745, 19608, 254902),
  ("eggshell", 1000000, 988235, 768627), ("eggshellblue", 768627, 1000000, 968627), ("electricblue", 23529, 321569, 1000000), ("electricgreen", 129412, 988235, 50980),
  ("electriclime", 658824, 1000000, 15686), ("electricpink", 1000000, 15686, 564706), ("electricpurple", 666667, 137255, 1000000), ("emerald", 3922, 627451, 286275),
  ("emeraldgreen", 7843, 560784, 117647), ("evergreen", 19608, 278431, 164706), ("fadedblue", 396078, 549020, 733333), ("fadedgreen", 482353, 698039, 454902),
  ("fadedorange", 941176, 580392, 301961), ("fadedpink", 870588, 615686, 674510), ("fadedpurple", 568627, 431373, 600000), ("fadedred", 827451, 286275, 305882),
  ("fadedyellow", 996078, 1000000, 498039), ("fawn", 811765, 686275, 482353), ("fern", 388235, 662745, 313725), ("ferngreen", 329412, 552941, 266667),
  ("fireenginered", 996078, 0, 7843), ("flatblue", 235294, 450980, 658824), ("flatgreen", 411765, 615686, 298039), ("fluorescentgreen", 31373, 1000000, 31373),
  ("flurogreen", 39216, 1000000, 7843), ("foamgreen", 564706, 992157, 662745), ("forest", 43137, 333333, 35294), ("forestgreen", 23529, 278431, 47059),
  ("forrestgreen", 82353, 266667, 23529), ("frenchblue", 262745, 419608, 678431), ("freshgreen", 411765, 847059, 309804), ("froggreen", 345098, 737255, 31373),
  ("fuchsia", 929412, 50980, 850980), ("gold", 858824, 705882, 47059), ("golden", 960784, 749020, 11765), ("goldenbrown", 698039, 478431, 3922),
  ("goldenrod", 976471, 737255, 31373), ("goldenyellow", 996078, 776471, 82353), ("grape", 423529, 203922, 380392), ("grapefruit", 992157, 349020, 337255),
  ("grapepurple", 364706, 78431, 317647), ("grass", 360784, 674510, 176471), ("grassgreen", 247059, 607843, 43137), ("grassygreen", 254902, 611765, 11765),
  ("green", 82353, 690196, 101961), ("greenblue", 3922, 752941, 552941), ("greenyellow", 709804, 807843, 31373), ("greenapple", 368627, 862745, 121569),
  ("greenbrown", 329412, 305882, 11765), ("greengrey", 466667, 572549, 435294), ("greenish", 250980, 639216, 407843), ("greenishbeige", 788235, 819608, 474510),
  ("greenishblue", 43137, 545098, 529412), ("greenishbrown", 411765, 380392, 70588), ("greenishcyan", 164706, 996078, 717647), ("greenishgrey", 588235, 682353, 552941),
  ("greenishtan", 737255, 796078, 478431), ("greenishteal", 196078, 749020, 517647), ("greenishturquoise", 0, 984314, 690196), ("greenishyellow", 803922, 992157, 7843),
  ("greenteal", 47059, 709804, 466667), ("greenyblue", 258824, 701961, 584314), ("greenybrown", 411765, 376471, 23529), ("greenygrey", 494118, 627451, 478431),
  ("greenyyellow", 776471, 972549, 31373), ("grey", 572549, 584314, 568627), ("greyblue", 392157, 490196, 556863), ("greygreen", 525490, 631373, 490196),
  ("greybrown", 498039, 439216, 325490), ("greyish", 658824, 643137, 584314), ("greyishblue", 368627, 505882, 615686), ("greyishbrown", 478431, 415686, 309804),
  ("greyishgreen", 509804, 650980, 490196), ("greyishpink", 784314, 552941, 580392), ("greyishpurple", 533333, 443137, 568627), ("greyishteal", 443137, 623529, 568627),
  ("greypink", 764706, 564706, 607843), ("greypurple", 509804, 427451, 549020), ("greyteal", 368627, 607843, 541176), ("grossgreen", 627451, 749020, 86275),
  ("gunmetal", 325490, 384314, 403922), ("hazel", 556863, 462745, 94118), ("heather", 643137, 517647, 674510), ("heliotrope", 850980, 309804, 960784),
  ("highlightergreen", 105882, 988235, 23529), ("hospitalgreen", 607843, 898039, 666667), ("hotgreen", 145098, 1000000, 160784), ("hotmagenta", 960784, 15686, 788235),
  ("hotpink", 1000000, 7843, 552941), ("hotpurple", 796078, 0, 960784), ("huntergreen", 43137, 250980, 31373), ("ice", 839216, 1000000, 980392),
  ("iceblue", 843137, 1000000, 996078), ("ickygreen", 560784, 682353, 133333), ("indianred", 521569, 54902, 15686), ("indigo", 219608, 7843, 509804),
  ("indigoblue", 227451, 94118, 694118), ("iris", 384314, 345098, 768627), ("irishgreen", 3922, 584314, 160784), ("ivory", 1000000, 1000000, 796078),
  ("jade", 121569, 654902, 454902), ("jadegreen", 168627, 686275, 415686), ("junglegreen", 15686, 509804, 262745), ("kelleygreen", 0, 576471, 215686),
  ("kellygreen", 7843, 670588, 180392), ("kermitgreen", 360784, 698039, 0), ("keylime", 682353, 1000000, 431373), ("khaki", 666667, 650980, 384314),
  ("khakigreen", 447059, 525490, 223529), ("kiwi", 611765, 937255, 262745), ("kiwigreen", 556863, 898039, 247059), ("lavender", 780392, 623529, 937255),
  ("lavenderblue", 545098, 533333, 972549), ("lavenderpink", 866667, 521569, 843137), ("lawngreen", 301961, 643137, 35294), ("leaf", 443137, 666667, 203922),
  ("leafgreen", 360784, 662745, 15686), ("leafygreen", 317647, 717647, 231373), ("leather", 674510, 454902, 203922), ("lemon", 992157, 1000000, 321569),
  ("lemongreen", 678431, 972549, 7843), ("lemonlime", 749020, 996078, 156863), ("lemonyellow", 992157, 1000000, 219608), ("lichen", 560784, 713725, 482353),
  ("lightaqua", 549020, 1000000, 858824), ("lightaquamarine", 482353, 992157, 780392), ("lightbeige", 1000000, 996078, 713725), ("lightblue", 482353, 784314, 964706),
  ("lightbluegreen", 494118, 984314, 701961), ("lightbluegrey", 717647, 788235, 886275), ("lightbluishgreen", 462745, 992157, 658824), ("lightbrightgreen", 325490, 996078, 360784),
  ("lightbrown", 678431, 505882, 313725), ("lightburgundy", 658824, 254902, 356863), ("lightcyan", 674510, 1000000, 988235), ("lighteggplant", 537255, 270588, 521569),
  ("lightergreen", 458824, 992157, 388235), ("lighterpurple", 647059, 352941, 956863), ("lightforestgreen", 309804, 568627, 325490), ("lightgold", 992157, 862745, 360784),
  ("lightgrassgreen", 603922, 968627, 392157), ("lightgreen", 462745, 1000000, 482353), ("lightgreenblue", 337255, 988235, 635294), ("lightgreenishblue", 388235, 968627, 705882),
  ("lightgrey", 847059, 862745, 839216), ("lightgreyblue", 615686, 737255, 831373), ("lightgreygreen", 717647, 882353, 631373), ("lightindigo", 427451, 352941, 811765),
  ("lightishblue", 239216, 478431, 992157), ("lightishgreen", 380392, 882353, 376471), ("lightishpurple", 647059, 321569, 901961), ("lightishred", 996078, 184314, 290196),
  ("lightkhaki", 901961, 949020, 635294), ("lightlavendar", 937255, 752941, 996078), ("lightlavender", 874510, 772549, 996078), ("lightlightblue", 792157, 1000000, 984314),
  ("lightlightgreen", 784314, 1000000, 690196), ("lightlilac", 929412, 784314, 1000000), ("lightlime", 682353, 992157, 423529), ("lightlimegreen", 725490, 1000000, 400000),
  ("lightmagenta", 980392, 372549, 968627), ("lightmaroon", 635294, 282353, 341176), ("lightmauve", 760784, 572549, 631373), ("lightmint", 713725, 1000000, 733333),
  ("lightmintgreen", 650980, 984314, 698039), ("lightmossgreen", 650980, 784314, 458824), ("lightmustard", 968627, 835294, 376471), ("lightnavy", 82353, 313725, 517647),
  ("lightnavyblue", 180392, 352941, 533333), ("lightneongreen", 305882, 992157, 329412), ("lightolive", 674510, 749020, 411765), ("lightolivegreen", 643137, 745098, 360784),
  ("lightorange", 992157, 666667, 282353), ("lightpastelgreen", 698039, 984314, 647059), ("lightpeach", 1000000, 847059, 694118), ("lightpeagreen", 768627, 996078, 509804),
  ("lightperiwinkle", 756863, 776471, 988235), ("lightpink", 1000000, 819608, 874510), ("lightplum", 615686, 341176, 513725), ("lightpurple", 749020, 466667, 964706),
  ("lightred", 1000000, 278431, 298039), ("lightrose", 1000000, 772549, 796078), ("lightroyalblue", 227451, 180392, 996078), ("lightsage", 737255, 925490, 674510),
  ("lightsalmon", 996078, 662745, 576471), ("lightseafoam", 627451, 996078, 749020), ("lightseafoamgreen", 654902, 1000000, 709804), ("lightseagreen", 596078, 964706, 690196),
  ("lightskyblue", 776471, 988235, 1000000), ("lighttan", 984314, 933333, 674510), ("lightteal", 564706, 894118, 756863), ("lightturquoise", 494118, 956863, 800000),
  ("lighturple", 701961, 435294, 964706), ("lightviolet", 839216, 705882, 988235), ("lightyellow", 1000000, 996078, 478431), ("lightyellowgreen", 800000, 992157, 498039),
  ("lightyellowishgreen", 760784, 1000000, 537255), ("lilac", 807843, 635294, 992157), ("liliac", 768627, 556863, 992157), ("lime", 666667, 1000000, 196078),
  ("limegreen", 537255, 996078, 19608), ("limeyellow", 815686, 996078, 113725), ("lipstick", 835294, 90196, 305882), ("lipstickred", 752941, 7843, 184314),
  ("macaroniandcheese", 937255, 705882, 207843), ("magenta", 760784, 0, 470588), ("mahogany", 290196, 3922, 0), ("maize", 956863, 815686, 329412),
  ("mango", 1000000, 650980, 168627), ("manilla", 1000000, 980392, 525490), ("marigold", 988235, 752941, 23529), ("marine", 15686, 180392, 376471),
  ("marineblue", 3922, 219608, 415686), ("maroon", 396078, 0, 129412), ("mauve", 682353, 443137, 505882), ("mediumblue", 172549, 435294, 733333),
  ("mediumbrown", 498039, 317647, 70588), ("mediumgreen", 223529, 678431, 282353), ("mediumgrey", 490196, 498039, 486275), ("mediumpink", 952941, 380392, 588235),
  ("mediumpurple", 619608, 262745, 635294), ("melon", 1000000, 470588, 333333), ("merlot", 450980, 0, 223529), ("metallicblue", 309804, 450980, 556863),
  ("midblue", 152941, 415686, 701961), ("midgreen", 313725, 654902, 278431), ("midnight", 11765, 3922, 176471), ("midnightblue", 7843, 0, 207843),
  ("midnightpurple", 156863, 3922, 215686), ("militarygreen", 400000, 486275, 243137), ("milkchocolate", 498039, 305882, 117647), ("mint", 623529, 996078, 690196),
  ("mintgreen", 560784, 1000000, 623529), ("mintygreen", 43137, 968627, 490196), ("mocha", 615686, 462745, 317647), ("moss", 462745, 600000, 345098),
  ("mossgreen", 396078, 545098, 219608), ("mossygreen", 388235, 545098, 152941), ("mud", 450980, 360784, 70588), ("mudbrown", 376471, 274510, 58824),
  ("muddybrown", 533333, 407843, 23529), ("muddygreen", 396078, 454902, 196078), ("muddyyellow", 749020, 674510, 19608), ("mudgreen", 376471, 400000, 7843),
  ("mulberry", 572549, 39216, 305882), ("murkygreen", 423529, 478431, 54902), ("mushroom", 729412, 619608, 533333), ("mustard", 807843, 701961, 3922),
  ("mustardbrown", 674510, 494118, 15686), ("mustardgreen", 658824, 709804, 15686), ("mustardyellow", 823529, 741176, 39216), ("mutedblue", 231373, 443137, 623529),
  ("mutedgreen", 372549, 627451, 321569), ("mutedpink", 819608, 462745, 560784), ("mutedpurple", 501961, 356863, 529412), ("nastygreen", 439216, 698039, 247059),
  ("navy", 3922, 82353, 243137), ("navyblue", 0, 66667, 274510), ("navygreen", 207843, 325490, 39216), ("neonblue", 15686, 850980, 1000000),
  ("neongreen", 47059, 1000000, 47059), ("neonpink", 996078, 3922, 603922), ("neonpurple", 737255, 74510, 996078), ("neonred", 1000000, 27451, 227451),
  ("neonyellow", 811765, 1000000, 15686), ("niceblue", 62745, 478431, 690196), ("nightblue", 15686, 11765, 282353), ("ocean", 3922, 482353, 572549),
  ("oceanblue", 11765, 443137, 611765), ("oceangreen", 239216, 600000, 450980), ("ocher", 749020, 607843, 47059), ("ochre", 749020, 564706, 19608),
  ("ocre", 776471, 611765, 15686), ("offblue", 337255, 517647, 682353), ("offgreen", 419608, 639216, 325490), ("offwhite", 1000000, 1000000, 894118),
  ("offyellow", 945098, 952941, 247059), ("oldpink", 780392, 474510, 525490), ("oldrose", 784314, 498039, 537255), ("olive", 431373, 458824, 54902),
  ("olivebrown", 392157, 329412, 11765), ("olivedrab", 435294, 462745, 196078), ("olivegreen", 403922, 478431, 15686), ("oliveyellow", 760784, 717647, 35294),
  ("orange", 976471, 450980, 23529), ("orangebrown", 745098, 392157, 0), ("orangeish", 992157, 552941, 286275), ("orangepink", 1000000, 435294, 321569),
  ("orangered", 996078, 258824, 58824), ("orangeybrown", 694118, 376471, 7843), ("orangeyellow", 1000000, 678431, 3922), ("orangeyred", 980392, 258824, 141176),
  ("orangeyyellow", 992157, 725490, 82353), ("orangish", 988235, 509804, 290196), ("orangishbrown", 698039, 372549, 11765), ("orangishred", 956863, 211765, 19608),
  ("orchid", 784314, 458824, 768627), ("pale", 1000000, 976471, 815686), ("paleaqua", 721569, 1000000, 921569), ("paleblue", 815686, 996078, 996078),
  ("palebrown", 694118, 568627, 431373), ("palecyan", 717647, 1000000, 980392), ("palegold", 992157, 870588, 423529), ("palegreen", 780392, 992157, 709804),
  ("palegrey", 992157, 992157, 996078), ("palelavender", 933333, 811765, 996078), ("palelightgreen", 694118, 988235, 600000), ("palelilac", 894118, 796078, 1000000),
  ("palelime", 745098, 992157, 450980), ("palelimegreen", 694118, 1000000, 396078), ("palemagenta", 843137, 403922, 678431), ("palemauve", 996078, 815686, 988235),
  ("paleolive", 725490, 800000, 505882), ("paleolivegreen", 694118, 823529, 482353), ("paleorange", 1000000, 654902, 337255), ("palepeach", 1000000, 898039, 678431),
  ("palepink", 1000000, 811765, 862745), ("palepurple", 717647, 564706, 831373), ("palered", 850980, 329412, 301961), ("palerose", 992157, 756863, 772549),
  ("palesalmon", 1000000, 694118, 603922), ("paleskyblue", 741176, 964706, 996078), ("paleteal", 509804, 796078, 698039), ("paleturquoise", 647059, 984314, 835294),
  ("paleviolet", 807843, 682353, 980392), ("paleyellow", 1000000, 1000000, 517647), ("parchment", 996078, 988235, 686275), ("pastelblue", 635294, 749020, 996078),
  ("pastelgreen", 690196, 1000000, 615686), ("pastelorange", 1000000, 588235, 309804), ("pastelpink", 1000000, 729412, 803922), ("pastelpurple", 792157, 627451, 1000000),
  ("pastelred", 858824, 345098, 337255), ("pastelyellow", 1000000, 996078, 443137), ("pea", 643137, 749020, 125490), ("peach", 1000000, 690196, 486275),
  ("peachypink", 1000000, 603922, 541176), ("peacockblue", 3922, 403922, 584314), ("peagreen", 556863, 670588, 70588), ("pear", 796078, 972549, 372549),
  ("peasoup", 572549, 600000, 3922), ("peasoupgreen", 580392, 650980, 90196), ("periwinkle", 556863, 509804, 996078), ("periwinkleblue", 560784, 600000, 984314),
  ("perrywinkle", 560784, 549020, 905882), ("petrol", 0, 372549, 415686), ("pigpink", 905882, 556863, 647059), ("pine", 168627, 364706, 203922),
  ("pinegreen", 39216, 282353, 117647), ("pink", 1000000, 505882, 752941), ("pinkpurple", 937255, 113725, 905882), ("pinkish", 831373, 415686, 494118),
  ("pinkishbrown", 694118, 447059, 380392), ("pinkishgrey", 784314, 674510, 662745), ("pinkishorange", 1000000, 447059, 298039), ("pinkishpurple", 839216, 282353, 843137),
  ("pinkishred", 945098, 47059, 270588), ("pinkishtan", 850980, 607843, 509804), ("pinkred", 960784, 19608, 309804), ("pinky", 988235, 525490, 666667),
  ("pinkypurple", 788235, 298039, 745098), ("pinkyred", 988235, 149020, 278431), ("pissyellow", 866667, 839216, 94118), ("pistachio", 752941, 980392, 545098),
  ("plum", 345098, 58824, 254902), ("plumpurple", 305882, 19608, 313725), ("poisongreen", 250980, 992157, 78431), ("poo", 560784, 450980, 11765),
  ("poobrown", 533333, 372549, 3922), ("poop", 498039, 368627, 0), ("poopbrown", 478431, 349020, 3922), ("poopgreen", 435294, 486275, 0),
  ("powderblue", 694118, 819608, 988235), ("powderpink", 1000000, 698039, 815686), ("primaryblue", 31373, 15686, 976471), ("prussianblue", 0, 270588, 466667),
  ("puce", 647059, 494118, 321569), ("puke", 647059, 647059, 7843), ("pukebrown", 580392, 466667, 23529), ("pukegreen", 603922, 682353, 27451),
  ("pukeyellow", 760784, 745098, 54902), ("pumpkin", 882353, 466667, 3922), ("pumpkinorange", 984314, 490196, 27451), ("pureblue", 7843, 11765, 886275),
  ("purple", 494118, 117647, 611765), ("purpleblue", 364706, 129412, 815686), ("purplepink", 843137, 145098, 870588), ("purplebrown", 403922, 227451, 247059),
  ("purplegrey", 525490, 435294, 521569), ("purpleish", 596078, 337255, 552941), ("purpleishblue", 380392, 250980, 937255), ("purpleishpink", 874510, 305882, 784314),
  ("purplered", 600000, 3922, 278431), ("purpley", 529412, 337255, 894118), ("purpleyblue", 372549, 203922, 905882), ("purpleygrey", 580392, 494118, 580392),
  ("purpleypink", 784314, 235294, 725490), ("purplish", 580392, 337255, 549020), ("purplishblue", 376471, 117647, 976471), ("purplishbrown", 419608, 258824, 278431),
  ("purplishgrey", 478431, 407843, 498039), ("purplishpink", 807843, 364706, 682353), ("purplishred", 690196, 19608, 294118), ("purply", 596078, 247059, 698039),
  ("purplyblue", 400000, 101961, 933333), ("purplypink", 941176, 458824, 901961), ("putty", 745098, 682353, 541176), ("racinggreen", 3922, 274510, 0),
  ("radioactivegreen", 172549, 980392, 121569), ("raspberry", 690196, 3922, 286275), ("rawsienna", 603922, 384314, 0), ("rawumber", 654902, 368627, 35294),
  ("reallylightblue", 831373, 1000000, 1000000), ("red", 898039, 0, 0), ("redbrown", 545098, 180392, 86275), ("reddish", 768627, 258824, 250980),
  ("reddishbrown", 498039, 168627, 39216), ("reddishgrey", 600000, 458824, 439216), ("reddishorange", 972549, 282353, 109804), ("reddishpink", 996078, 172549, 329412),
  ("reddishpurple", 568627, 35294, 317647), ("reddybrown", 431373, 62745, 19608), ("redorange", 992157, 235294, 23529), ("redpink", 980392, 164706, 333333),
  ("redpurple", 509804, 27451, 278431), ("redviolet", 619608, 3922, 407843), ("redwine", 549020, 0, 203922), ("richblue", 7843, 105882, 976471),
  ("richpurple", 447059, 0, 345098), ("robineggblue", 541176, 945098, 996078), ("robinsegg", 427451, 929412, 992157), ("robinseggblue", 596078, 937255, 976471),
  ("rosa", 996078, 525490, 643137), ("rose", 811765, 384314, 458824), ("rosepink", 968627, 529412, 603922), ("rosered", 745098, 3922, 235294),
  ("rosypink", 964706, 407843, 556863), ("rouge", 670588, 70588, 223529), ("royal", 47059, 90196, 576471), ("royalblue", 19608, 15686, 666667),
  ("royalpurple", 294118, 0, 431373), ("ruby", 792157, 3922, 278431), ("russet", 631373, 223529, 19608), ("rust", 658824, 235294, 35294),
  ("rustbrown", 545098, 192157, 11765), ("rustorange", 768627, 333333, 31373), ("rustred", 666667, 152941, 15686), ("rustyorange", 803922, 349020, 35294),
  ("rustyred", 686275, 184314, 50980), ("saffron", 996078, 698039, 35294), ("sage", 529412, 682353, 450980), ("sagegreen", 533333, 701961, 470588),
  ("salmon", 1000000, 474510, 423529), ("salmonpink", 996078, 482353, 486275), ("sand", 886275, 792157, 462745), ("sandbrown", 796078, 647059, 376471),
  ("sandstone", 788235, 682353, 454902), ("sandy", 945098, 854902, 478431), ("sandybrown", 768627, 650980, 380392), ("sandyellow", 988235, 882353, 400000),
  ("sandyyellow", 992157, 933333, 450980), ("sapgreen", 360784, 545098, 82353), ("sapphire", 129412, 219608, 670588), ("scarlet", 745098, 3922, 98039),
  ("sea", 235294, 600000, 572549), ("seablue", 15686, 454902, 584314), ("seafoam", 501961, 976471, 678431), ("seafoamblue", 470588, 819608, 713725),
  ("seafoamgreen", 478431, 976471, 670588), ("seagreen", 325490, 988235, 631373), ("seaweed", 94118, 819608, 482353), ("seaweedgreen", 207843, 678431, 419608),
  ("sepia", 596078, 368627, 168627), ("shamrock", 3922, 705882, 298039), ("shamrockgreen", 7843, 756863, 301961), ("shit", 498039, 372549, 0),
  ("shitbrown", 482353, 345098, 15686), ("shitgreen", 458824, 501961, 0), ("shockingpink", 996078, 7843, 635294), ("sickgreen", 615686, 725490, 172549),
  ("sicklygreen", 580392, 698039, 109804), ("sicklyyellow", 815686, 894118, 160784), ("sienna", 662745, 337255, 117647), ("silver", 772549, 788235, 780392),
  ("sky", 509804, 792157, 988235), ("skyblue", 458824, 733333, 992157), ("slate", 317647, 396078, 447059), ("slateblue", 356863, 486275, 600000),
  ("slategreen", 396078, 552941, 427451), ("slategrey", 349020, 396078, 427451), ("slimegreen", 600000, 800000, 15686), ("snot", 674510, 733333, 50980),
  ("snotgreen", 615686, 756863, 0), ("softblue", 392157, 533333, 917647), ("softgreen", 435294, 760784, 462745), ("softpink", 992157, 690196, 752941),
  ("softpurple", 650980, 435294, 709804), ("spearmint", 117647, 972549, 462745), ("springgreen", 662745, 976471, 443137), ("spruce", 39216, 372549, 219608),
  ("squash", 949020, 670588, 82353), ("steel", 450980, 521569, 584314), ("steelblue", 352941, 490196, 603922), ("steelgrey", 435294, 509804, 541176),
  ("stone", 678431, 647059, 529412), ("stormyblue", 313725, 482353, 611765), ("straw", 988235, 964706, 474510), ("strawberry", 984314, 160784, 262745),
  ("strongblue", 47059, 23529, 968627), ("strongpink", 1000000, 27451, 537255), ("sunflower", 1000000, 772549, 70588), ("sunfloweryellow", 1000000, 854902, 11765),
  ("sunnyyellow", 1000000, 976471, 90196), ("sunshineyellow", 1000000, 992157, 215686), ("sunyellow", 1000000, 874510, 133333), ("swamp", 411765, 513725, 223529),
  ("swampgreen", 454902, 521569, 0), ("tan", 819608, 698039, 435294), ("tanbrown", 670588, 494118, 298039), ("tangerine", 1000000, 580392, 31373),
  ("tangreen", 662745, 745098, 439216), ("taupe", 725490, 635294, 505882), ("tea", 396078, 670588, 486275), ("teagreen", 741176, 972549, 639216),
  ("teal", 7843, 576471, 525490), ("tealblue", 3922, 533333, 623529), ("tealgreen", 145098, 639216, 435294), ("tealish", 141176, 737255, 658824),
  ("tealishgreen", 47059, 862745, 450980), ("terracota", 796078, 407843, 262745), ("terracotta", 788235, 392157, 231373), ("tiffanyblue", 482353, 949020, 854902),
  ("tomato", 937255, 250980, 149020), ("tomatored", 925490, 176471, 3922), ("topaz", 74510, 733333, 686275), ("toupe", 780392, 674510, 490196),
  ("toxicgreen", 380392, 870588, 164706), ("treegreen", 164706, 494118, 98039), ("trueblue", 3922, 58824, 800000), ("truegreen", 31373, 580392, 15686),
  ("turquoise", 23529, 760784, 674510), ("turquoiseblue", 23529, 694118, 768627), ("turquoisegreen", 15686, 956863, 537255), ("turtlegreen", 458824, 721569, 309804),
  ("twilight", 305882, 317647, 545098), ("twilightblue", 39216, 262745, 478431), ("uglyblue", 192157, 400000, 541176), ("uglybrown", 490196, 443137, 11765),
  ("uglygreen", 478431, 592157, 11765), ("uglypink", 803922, 458824, 517647), ("uglypurple", 643137, 258824, 627451), ("uglyyellow", 815686, 756863, 3922),
  ("ultramarine", 125490, 0, 694118), ("ultramarineblue", 94118, 19608, 858824), ("umber", 698039, 392157, 0), ("velvet", 458824, 31373, 317647),
  ("vermillion", 956863, 196078, 47059), ("verydarkblue", 0, 3922, 200000), ("verydarkbrown", 113725, 7843, 0), ("verydarkgreen", 23529, 180392, 11765),
  ("verydarkpurple", 164706, 3922, 203922), ("verylightblue", 835294, 1000000, 1000000), ("verylightbrown", 827451, 713725, 513725), ("verylightgreen", 819608, 1000000, 741176),
  ("verylightpink", 1000000, 956863, 949020), ("verylightpurple", 964706, 807843, 988235), ("verypaleblue", 839216, 1000000, 996078), ("verypalegreen", 811765, 992157, 737255),
  ("vibrantblue", 11765, 223529, 972549), ("vibrantgreen", 39216, 866667, 31373), ("vibrantpurple", 678431, 11765, 870588), ("violet", 603922, 54902, 917647),
  ("violetblue", 317647, 39216, 788235), ("violetpink", 984314, 372549, 988235), ("violetred", 647059, 0, 333333), ("viridian", 117647, 568627, 403922),
  ("vividblue", 82353, 180392, 1000000), ("vividgreen", 184314, 937255, 62745), ("vividpurple", 600000, 0, 980392), ("vomit", 635294, 643137, 82353),
  ("vomitgreen", 537255, 635294, 11765), ("vomityellow", 780392, 756863, 47059), ("warmblue", 294118, 341176, 858824), ("warmbrown", 588235, 305882, 7843),
  ("warmgrey", 592157, 541176, 517647), ("warmpink", 984314, 333333, 505882), ("warmpurple", 584314, 180392, 560784), ("washedoutgreen", 737255, 960784, 650980),
  ("waterblue", 54902, 529412, 800000), ("watermelon", 992157, 274510, 349020), ("weirdgreen", 227451, 898039, 498039), ("wheat", 984314, 866667, 494118),
  ("white", 1000000, 1000000, 1000000), ("windowsblue", 215686, 470588, 749020), ("wine", 501961, 3922, 247059), ("winered", 482353, 11765, 137255),
  ("wintergreen", 125490, 976471, 525490), ("wisteria", 658824, 490196, 760784), ("yellow", 1000000, 1000000, 78431), ("yellowgreen", 784314, 992157, 239216),
  ("yellowbrown", 717647, 580392, 0), ("yellowish", 980392, 933333, 400000), ("yellowishbrown", 607843, 478431, 3922), ("yellowishgreen", 690196, 866667, 86275),
  ("yellowishorange", 1000000, 670588, 58824), ("yellowishtan", 988235, 988235, 505882), ("yellowochre", 796078, 615686, 23529), ("yelloworange", 988235, 690196, 3922),
  ("yellowtan", 1000000, 890196, 431373), ("yellowybrown", 682353, 545098, 47059), ("yellowygreen", 749020, 945098, 156863)]

end Verif.Model
