# Formal model of Python_BMP — design

## 1. Trusted base

* The Lean 4.33 kernel. Every theorem may depend only on `propext`, `Classical.choice` and
  `Quot.sound`. No `sorry`, no own axioms, no `native_decide`, no `bv_decide`.
* The correspondence between the Python text in `/repo/pythonbmp` and the Lean definitions in
  `lean/Verif/Model/*.lean`. Each definition cites file and lines. The code was read, never run.
* The Python semantics written down in `lean/Verif/Py.lean` (see section 2).

## 2. How Python is modelled

| Python | Lean |
| --- | --- |
| `int` | `Int` (unbounded) ; `//`, `%`, `divmod` are floor versions with `ZeroDivisionError` |
| `&`, `\|`, `^`, `>>`, `<<` on ints | two's complement functions on `Int` (`pyAnd`, ...) or `Nat` bit operations on bytes |
| `array('B')`, `bytes` | `List Nat`; the range 0..255 is checked where Python checks it (`mkArray`, `setItem`) |
| exceptions | `Except PyErr` with `IndexError`, `ValueError`, `OverflowError`, `KeyError`, `ZeroDivisionError`, `UnboundLocalError`, `TypeError` |
| `a[i]` | `getItem`: negative index wraps once, else `IndexError` |
| `a[i] = v` | `setItem`: index check, then `OverflowError` when v is not a byte |
| `a[s:e]`, `a[s:e] = buf` | `slice`, `setSlice`: CPython clamping; assignment may change the length |
| `a[s:e:k]`, `a[s:e:k] = buf` | `sliceStep`, `setSliceStep`: assigning an empty array deletes the elements of an extended slice (k ≠ 1) as CPython's `array` does; any other length mismatch is `ValueError` |
| `for i in range(a,b)` | fold over `pyRange a b` |
| `while` | structural recursion on a fuel argument that is proved sufficient, or on a measure |
| generator | list of the yielded values in order |
| a function mutating its array argument | a function from the old array to the new one |

Simplifications that apply everywhere:

* A raised exception carries no array. Mutations done before the exception are not observable in the model.
  Only `Model/Abort.lean`, `Model/AbortMore.lean` and `Model/AbortText.lean` keep it: pixels, lines, polygons, rectangles, circles, discs, ellipses, thick lines, grids, parallelograms, palettes, patterns and text statement by statement, with the array that is left (C200).
* `print` of a message is dropped. A guard that prints and returns `None` leaves the array unchanged.
* Float arithmetic: in the filters each float expression enters as an arbitrary function on bytes. For the
  expressions of C103 to C105, C171 and C172 `Model/Float.lean` models the floats themselves: rationals, every operation
  rounded to 53 significant bits, ties to even (`fl`), with `round` (`rnd`) and `int` (`trunc`). The exponent
  range is unbounded. It is also used for Hilbert curves and fractal domains (C106, C108, C123). Statements about Koch
  curves, fractal sets, mathlib.py, solids3D.py, splines, polygons and pies (C107, C109 to C122) use exact rational, real or complex numbers where they say so. For the parametric curves, regular polygons and rotated
  ellipses `Model/FloatCurves.lean` models the operations on floats as well, over any arithmetic (`Floats`) whose operations have the relative error 2^-53 and whose
  `sin`, `cos`, `tanh` and whole powers are wrong by at most 2^-52; C175 bounds the difference to the exact curves. `Model/FloatAttract.lean` does the same for the attractors, over any `Libm` with such bounds (C176), and `Model/FloatEscape.lean` for five escape time fractals (C177). That the C library is that exact is trusted. That CPython floats are IEEE binary64 with correctly rounded `+ * /` is trusted.
  Elsewhere float code is modelled only where exact integer arithmetic gives the result (stated at the definition).
* Functions that select the offset function of the depth once, with `_getBMoffhdfunc` (`line`, `circle`, `ellipse`, `filledrect`, circular
  regions), are modelled with `BMoffsethd`, which reads the depth (byte 28) again for each point. This differs only if the function itself
  overwrites byte 28, which only diagonals of `line` that end in the last row can do; the theorems about these (C24) leave byte 28 out. On
  depths other than 1, 4, 8 and 24, where the selection raises `KeyError`, `line` in the model leaves the array as it is for
  slanted lines; no theorem about `line` speaks of such depths.
* Keyword/positional argument handling and argument type errors are not modelled.
* Files are byte strings; a set of files is a function from names to contents. Operating-system errors, links
  and two names for one file are not modelled.

## 3. Independent specification

`lean/Verif/Spec.lean` states the BMP file format without using any model function: little-endian
header fields, row length `4*ceil(w*bits/32)`, data offset `54 + 4*2^bits` (54 for 24-bit), bottom-up
rows, most significant bits first, palette entries as B,G,R,0. `Valid b W H bits` says that `b` is a
well-formed file; `pix b W H bits x y` is the colour of a pixel; `palRGB b c` is a palette entry.
Properties are stated with these. All are for arbitrary `W, H < 2^24` (the model shows why the bound is
needed: header writes drop the fourth byte).

## 4. Layout

* `Verif/Py.lean` Python primitives.
* `Verif/Model/*` the code: `IntTools`, `Header`, `StdPal`, `Colors`, `Palette`, `Pixel`, `Blt`, `Draw`,
  `Transform`, `Image`, `Helpers`, `Filters`, `Compare`, `Pattern`, `CircRegion`, `Erase`, `Tone`, `Files`, `Shapes`, `Smaller`, `Float`, `Hilbert`, `Koch`, `Fractal`, `MathLib`, `Solids`, `Curves`, `Edges`, `Pals`, `Gradient`, `Dots`, `Lens`, `Plane`, `Param`, `Escape`, `Attract`, `Utils`, `CurveFiles`, `Names`, `FractalFiles`, `Misc`, `Sphere`, `Newton`, `Fonts`, `Levels`, `HSL`, `Nibbles`, `Penta`.
* `Verif/Spec.lean`, `SpecImage.lean`, `SpecText.lean`, `SpecRegion.lean`, `SpecFiles.lean` the independent specifications: file format,
  new images (`Shows`), changes confined to a set of pixels (`Alters`), glyphs and text layout (`Stands`), files (`Stored`, `Saved`, `Careful`); `Paints` (drawing) and `Redraws` (in-place
  transforms) are the frame predicates used by the drawing theorems. None of them mentions a model function.
* `Verif/Lemmas/*` helper lemmas, `Verif/Props/*` the property theorems (one file per topic) with a
  concrete example next to each.
* `MANIFEST.json` maps property ids to theorem names; `seeded/LOG.jsonl` records mutation tests.

## 5. Plan per property

| id | modelled | proof |
| --- | --- | --- |
| C01 | newBMP, _setmeta, header getters | symbolic evaluation of the header writes, length arithmetic |
| C02 | _xbytes branch structure, header-size dict | case analysis over all integers |
| C03 | writeint/readint with cnt-1 bytes | false for sizes >= 2^24: witness; partial: value mod 2^24 |
| C04 | _xbytes, _pdbytes | arithmetic on divmod |
| C05–C08, C10 | plotxybit, getxybit | byte-level index function, div/mod for packed pixels; induction over the history |
| C09 | getRGBxybit, plotRGBxybit | as C05 |
| C11 | swapcolors | composition of C05/C06 |
| C12, C13 | palette access | index function, induction over the list |
| C14 | palshift | rotation of the list of palette bytes |
| C15, C16 | saveBMP/loadBMP on byte strings | size field = length |
| C17, C18 | BLT functions | slice lemmas |
| C19, C20 | horiline, vertline | row/column index lemmas; exact set of pixels on 4-bit images (`Nib`); far off-image bugs refuted by witness |
| C21, C22 | filledrect | induction over rows; C22 refuted by witness, the index that is painted instead is characterised |
| C23 | iterline | loop invariant on the error term; refuted for exact diagonals by witness, partial otherwise |
| C24 | line | fold over the points; diagonal header corruption refuted by witness |
| C25–C27 | circle generators and drawing | loop invariant for the decision variable |
| C28, C29 | verttrans | row permutation, induction over the while loop |
| C30, C31 | horizontalbulkswap | column permutation; packed depths refuted by witness |
| C32, C33 | invert functions | xor is complement |
| C34 | flipXY | row/column enumeration; inconsistency refuted by witness |
| C35, C36 | crop, copyrect, pasterect | row induction; witnesses for the bugs |
| C37 | upgradeto24bitimage | row induction |
| C38, C39 | image iterators | enumeration by offset; iterimageRGB refuted by witness |
| C40 | resizeNtimesbigger | row induction |
| C41–C43 | colours, byte flips | arithmetic; `decide` over all 256 bytes lifted to buffers |
| C44, C45 | decorators | decision logic, parametric in the guarded function; C45 refuted by witness |
| C46, C47, C52 | helpers | logic/arithmetic; C46 refuted by witness |
| C48 | plot8bitpattern | fold over rows and bits |
| C49 | imagecomp | xor algebra |
| C50 | monofilterto24bitregion | row induction |
| C51 | colorhistogram | counting over the enumeration of C38 |
| C53–C56 | regional flips and mirrors | column/row permutations inside a rectangle |
| C57 | convertselection2BMP | exact effect of the paste |
| C58–C60 | colour, brightness and gradient filters on 24-bit images | row induction, factors are arbitrary functions |
| C61–C65 | scaled, upside down, mirrored, sideways and italic patterns | fold over rows and bits, positions in closed form |
| C66, C67 | text output and text images | induction over the string; sizes of the text box |
| C68–C70 | invert and filter a disc | rows of the disc are disjoint byte segments; loop lemma for disjoint zones |
| C71 | copy and paste of a disc | reads precede writes; alignment of packed pixels |
| C72, C73 | flips and mirrors of a disc | row pairs, column pairs with strided slices |
| C74 | flipXYcircregion | columns read before rows are written; symmetry of the disc |
| C75 | outlinecircregion | row function of C68; exclusive or by pixel |
| C76 | brightness gradients in a disc | zones of rows and columns, factor abstract |
| C77 | quarter mirrors in a disc | composition of C73 and C72 |
| C78, C79 | erasing lines of the image and of a rectangle | invariant over the rows written; refuted for the last line |
| C80 | erasing lines of a disc | row zones of C68 |
| C81 | outline of a rectangle | invariant over rows with the last buffer read; refuted for reversed corners |
| C82 | pixel based mirrors | nested disjoint zones of exchanges (C11) |
| C83, C84 | luminosity threshold, gamma correction | induction over the pixels of a row buffer, then the rules of C50 and C69 |
| C85 | horizontal brightness gradient | strided columns as disjoint zones; refuted for the top row |
| C86 | missing, foreign and other files | the wrappers reduce to load, change, save; one lemma per wrapper, one theorem per argument list |
| C87–C89 | files with a changed image, rectangle or disc | in-memory theorems composed with C15; corner mirrors composed from C54 and C55 |
| C90 | colour adjustment of files | palette theorem C13 for palettes, C50, C58, C59, C83, C84 for true colour; refuted across depths |
| C91 | crop, enlarge, convert, compare files | C35, C37, C34, C40, C49 composed with C15; refuted for crop by corner points |
| C92 | pens and point lists | C17 and C27 under a fold |
| C93, C94 | polylines, polygons, rectangles | C24 under a fold; rectangles by C24 and the exact 4-bit run, no condition left |
| C95 | thick strokes | C27 under a fold over the points of C23 and C25 |
| C96 | grids, rows of lines, boundaries | membership in a stepped range, C19, C20; neighbouring segments cover the hull |
| C97 | ellipse points | invariant of the decision variable, uniqueness of the nearest row; chain of steps; refuted for the steep part |
| C98 | ellipse drawing | C97 with the loops of C26 and C27; refuted for the exchanged test |
| C99, C100 | parallelograms, vertex lists | translation of C23; folds |
| C101, C102 | split and shrink | strided slices as index maps; sums over squares by induction on rows; refuted for odd widths |
| C103 - C105 | floats | relative error 2^-53 of each rounding; half-integers are at least 1/(2d) away from other quotients; `decide +kernel` on the float model for the witnesses |
| C106, C107 | curves | induction on the order; a board of 2^n cells splits into four; the Koch list is related to its refinement by an invariant on strided positions |
| C108, C109 | fractals | a fold of plots with pairwise different points; `escapeFrom` by induction on fuel; orbits beyond 2 grow by a constant factor |
| C110 - C114 | mathlib.py with exact numbers | list induction; normal equations; Cauchy-Schwarz by discriminants; Cooley-Tukey by splitting sums into even and odd terms; derivatives of the three polynomials; `sin_three_mul` |
| C115 - C118 | solids3D.py with exact numbers | closed surfaces by evaluating the tables, by a general count of directed edges for rings; orientation by determinants; perspective by orthogonality of the three rotations |
| C119 | polygons | reuse C100 (bounding box) and C96 (row hulls) |
| C120 | curves | binomial sums; de Casteljau as the specification; convex combinations |
| C121 - C123 | regular polygons, pies, histograms | arithmetic of 360 / n; uniqueness of polar angles; relative error of three roundings below one bin |
| C124 - C126 | edges and regions | `find?` over the neighbours (C52), C39 for the loop over the image, C100 and C35 for cropping; walk from the content to the background for the bounding box |
| C127 - C130 | computed palettes, fewer colours, hue | C13 and C14 for the palette, `fl_rel` for the factors, permutation k -> m k + s modulo 2^bits for the places, C39 and C51 for the loop over the image, case analysis of the order of the channels for the hue |
| C131 - C133 | gradients | error bounds of the float operations for the colours, a lemma on layers painted over each other, C19, C20, C27, C92, C93, C95 and C98 for the layers |
| C134 - C137 | glyphs and texts in all directions, texts in files | one theorem over a table of styles, shapes and directions; C27 for the dots; `MarkD` for squares and discs at all depths; reading a line backwards |
| C138 - C140 | lenses, remaining file programs, directories | the disc copy of C71 from a resized image (C40, C102); frames by C14 |
| C141 - C146 | arrows, axes, scatter plots, shaded solids, rotated ellipses | a list of layers (`Layered`) over C24, C26, C27, C66, C96, C119; real angles by complex numbers |
| C147 - C150 | epicycloids, Lissajous curves, flowers, gears, hearts, superellipses, eggs | curves in the complex plane sampled at real times; rolling as a differential equation |
| C151 - C154 | values of fractal points, their files, iterated function systems, Newton's method | iterates in the complex plane and partial sums; orbits of affine maps; separated lists of roots |
| C155, C156 | points and pictures of attractors | relations between consecutive points; bins and numbers of hits |
| C157–C161 | texts, lists of numbers, statistics, tables, colour corrections | bits by `testBit`, nearest numbers, sums over lists, positions, palette distances |
| C162–C163 | files with curves | walks over the board (`Tour`), `Between`, sets of lines and strokes, rounded corners and Koch paths |
| C164 | dictionaries of named colours | `parts`, `hslParts`, `Within` with rational numbers |
| C165 | files with fractals | `Shows`, `First`, `Escapes`, `Bio`, `SumEscapes`, `RoundMod` over complex numbers |
| C166 | text of elapsed times | `Number`, `Reads`: digits and their value |
| C167 | points and tiles of a sphere | `sph`, `corners`, `Balanced` |
| C168 | pictures of Newton's method | Mathlib polynomials and derivatives, `Leads` |
| C169 | fonts | `glyph`, `Lit`, `Blank` |
| C170 | texts can be read | `At`: line and column of a character; `Fits` |
| C171 | percentages of gradients | error of a sum of rounded steps; a fraction with denominator 100 n is far from a half; C60, C76, C85 |
| C172 | rounding of `RGB2HSL` | errors of each operation; a fraction with a denominator up to 510 is far from a half or equal to it |
| C173 | laws of transformations | `Shows` carried through compositions of C28, C30, C32, C34, C35, C37, C40, C102; `Agree` |
| C174 | reversed and clipped lines | floors of two complementary multiples; C23, C24 |
| C175 | curves with floats | calculus of absolute errors for every operation; sin, cos and tanh are Lipschitz; error of a sum of rounded steps |
| C176 | attractors with floats | calculus of relative errors that counts roundings; C156 for the pictures |
| C177 | escape times with floats | relative errors of complex sums, products and powers; the exact orbit is followed step by step |
| C178 | pictures of superellipses | float values; the luminosity stays below 256 because floats above 256 are multiples of 2^-44 |
| C179 | saving and the search path | an entry is a part between separators; splitting and joining are inverse |
| C180 | several figures in one image | every call paints its area; layers determine the pixels |
| C181 | figures in mirrored images | the areas are symmetric, even those of lines |
| C182 | figures in inverted images | layers with inverted colours |
| C183 | figures in cropped images | the areas move with the figures |
| C184 | figures and changes of colour | layers with changed colours; the palette and the pixels do not affect each other |
| C185 | figures and conversion to 24 bits | layers with the colours of the palette |
| C186 | laws of texts | `joined`: the order of the parts; `spot`: where a part starts; `plain`; `Traceless` |
| C187 | palettes in the order blue, green, red | `Default`: the default palettes; `level`: off, half, full |
| C188 | points of curves and circles | rectangle around the control points; `OnCircle` |
| C189 | iterated function systems | `InBox`, `orbit`; `Shrinks` |
| C190 | centre, neighbours, vectors | distances to the borders; `pixRGB`; `sqDist` |
| C191 | solids from vertices to pixels | `cam`, `onScreen`, `faceNormal`, `shown`: camera, screen, normal vector, side; `Layered`, `FillSet`, `AnyColour` |
| C192 | figures in images with exchanged axes | `exchanged`, `turned`: figures mirrored at a diagonal; `Diagonal` |
| C193 | figures in enlarged images | `enlarged`: every pixel becomes a square; `Straight` |
| C194 | chains of file programs | `effect`: what a program does to a picture; `shown`: the effects in their order |
| C195 | from figures to files | `Drawn`: the picture of a list of figures; `shown` |
| C196 | colours beyond the depth | `reduce`: remainder of a colour; `Reduced`, `Fails`: the calls that obey, the calls that raise |
| C197 | mixtures of all drawing functions | `Stencil`: a function paints one set of pixels in every image of a size and depth; `Drawing`: a call with its set; `origin`: the place from which a flip or mirror takes a pixel |
| C198 | files of other programs | `Bitmap`: the file format with free place of the data and both orders of rows; `seen`, `entry`: pixels and palette as the file format defines them |
| C199 | files that were cut off | `b.take n`: the first n bytes of a valid file |
| C200 | drawing calls that raise an exception | `Unharmed`: after an exception the array is the one before the call; `HalfColumn`, `Moved`: the pixels that change instead |
| C201 | bytes that are no pixels | `SameImage` (C173): same size, depth, palette and pixels, other bytes free |
| C202 | caught exceptions | `after`/`stain` and `coloured`/`shade` (Session), `shown`/`spoil` (NegativeExact): the picture after a call from the picture before it |
| C203 | repeated and exchanged calls | `touched`/`ink` (Retry): the pixels a call may change and the colour they get from the one they had; `reach`/`beside` (RetryAll): the same pixels for slanted lines in negative numbers on 4-bit images too |

## 6. Faults of the code found by the proofs

In each case the full property is kept in `properties.jsonl`; the theorems named `_wrong`, `_false` or by the
symptom prove a concrete counterexample, the `_partial` and `_exact` theorems prove what does hold.

| id | what the code does |
| --- | --- |
| C03 | sizes from 2^24 on lose their top byte (`writeint`/`readint` handle `cnt - 1` bytes) |
| C15 | a 24-bit image without pixels does not load back |
| C19, C21, C24, C27 | 4-bit horizontal runs with an odd left or even right end paint the wrong pixels |
| C19, C27 | runs far to the left of 8/24-bit images delete bytes of the file |
| C19 | 4-bit runs with an odd left end far right of the image raise `IndexError` |
| C20 | 8/24-bit vertical lines far below the image delete bytes of the file (an empty array is assigned to an extended slice that is counted from the end of the file) |
| C22 | `filledrect` on 8-bit images paints the nearest colour of `int2RGB(color)` instead of colour `color` |
| C23, C24 | exact diagonals overshoot by one point in y; ending in the last row they overwrite header or palette bytes or, on wide images, set one more pixel in the first row, ending in the first row they raise IndexError (4, 8 bits) or append three bytes to the file (24 bits) |
| C23 | `iterline` produces the second end point twice |
| C30, C31, C53–C56 | 1-bit and unaligned 4-bit images are flipped and mirrored bytewise and wrongly |
| C34 | `flipXY` reflects 8/24-bit images in the other diagonal than 1/4-bit images |
| C35 | 8-bit crops get the default palette |
| C36, C57 | selections are pasted one row too low, sizes above 255 are truncated, the new image is too large |
| C36, C81 | `itercopyrect` yields one row more than the rectangle has when its columns are not whole bytes (1 and 4 bits): `copyrect` copies the row above, `outlineregion` clears it (`C36_copy_exact`, `C81_exact`) |
| C37, C39 | images whose rows do not fill whole bytes lose their last columns / all rows but one |
| C40 | `resizeNtimesbigger` fails for 1-bit images, odd widths of 4-bit and 24-bit images |
| C42 | black palette entries are never matched by distance |
| C43, C63 | `rotatebits` loses bit 0 |
| C45 | `entirecircleinboundary` compares y with the width |
| C46 | the list predicates always return True |
| C52 | neighbours in row 0 and column 0 are left out |
| C58 | the last column of the rectangle is not filtered |
| C60 | a rectangle of a single row raises `ZeroDivisionError` |
| C61 | dots partly outside the image are dropped whole |
| C64 | a colour list advances eight times per row; the sideways slant changes direction with the scale |
| C65 | upside down italic patterns extend to the left of x |
| C68–C72 | disc operations leave out the right end of each row; the colour filter one more column |
| C68 | a disc far to the left of the image changes bytes of the header or of other rows |
| C70 | `monocircle` of a disc that leaves the image raises `TypeError` (trailing comma) |
| C71 | a disc copied by a part of a byte (1- and 4-bit) changes the length of the file |
| C71–C73 | the guard compares y with the width: discs below a wide image overwrite the header, discs in tall images are refused |
| C74 | `flipXYcircregion` turns 8/24-bit discs by a quarter instead of exchanging the axes |
| C75 | `outlinecircregion` leaves the right end of each row of the disc as it was |
| C76 | `vertbrightnessgrad2circregion`, `horibrightnessgrad2circregion` raise ZeroDivisionError for the radius 0 |
| C73 | the ends of the last columns are not mirrored |
| C78, C79 | `erasealternatehorizontallines` and the rectangle version never erase the last line |
| C78 | the line erasers raise ZeroDivisionError for `n = 0` |
| C80 | the disc version counts lines from 0 at the top of the image, the others from 1 at the top of the area; the right end of each row is missed |
| C81 | `outlineregion` with `y1 > y2` starts at the wrong line and overwrites lines outside of the rectangle |
| C82 | `fliphorzontalpixelbased`, `fliphverticalalpixelbased` do nothing if the corners are not in order |
| C83, C84 | the disc versions leave out the right end of each row |
| C85 | `horizontalbrightnessgradto24bitregion` never changes the top row, because the end of the strided slice is the offset of that row itself |
| C85 | `horizontalbrightnessgradto24bitregion` raises ZeroDivisionError for one column |
| C90 | `monochrome2file` rounds the mean with a palette and cuts it off in true colour: (0, 0, 2) becomes 1 or 0 |
| C90 | `thresholdadjust2file` clips its limits with a palette and takes them modulo 256 in true colour |
| C91 | `cropBMPandsaveusingrectbnd` adds 1 to the inclusive second corner: one column and row too many, and nothing is saved at the right or bottom edge |
| C96 | `xygrid` omits the closing lines at the upper corner even if the steps fit |
| C97 | the second loop of `iterellipsepart` updates `d` with the wrong sign and constant: the circle of radius 4 reaches 5, half axes 1 and 30 reach 22; half axes 0 and 0 loop forever |
| C98 | `entireellipseisinboundary` exchanges the half axes, so wide ellipses skip the bounds check and paint pixels elsewhere |
| C99 | `filledparallelogram` leaves holes |
| C101 | `altsplitbufnway` loses the last group of an odd number of bytes; `altsplitbuf3way` of one pixel is empty |
| C102 | the last column of the smaller image is black when the width is an odd multiple of n; left-over rows are dropped at the top, left-over columns at the right |
| C104 | five percent more than 10 is 11 with a palette and 10 without |
| C105 | `applythresholdadjtoBGRbuf` uses `int` on a float product: a grey of 11 limited to 15..200 becomes 14 |
| C108 | the 8-bit branch of `plotmultifractal` has no bounds check: a point right of the image lands in the row above; a rectangle without width raises ZeroDivisionError |
| C109 | `multijulia` stops at distance 2 whatever the parameter: with c = -6 the fixed point 3 is reported to escape |
| C110 | the last term of `det3D` uses `a2[0]` in place of `a3[0]`; `isorthogonal` tests whether all products of components are zero, so (1,1) and (1,-1) are not orthogonal |
| C112 | `ifft` does not divide by the length; for lengths that are no power of 2 the last values stay unchanged |
| C114 | `rect2polarcoord2D` and `rect2sphericalcoord3D` give the opposite direction for x < 0 and raise ZeroDivisionError for x = 0; `rect2cylindricalcoord3D` uses the distance from the origin; the quarter-turn branch of `anglebetween2Dlines` is never taken |
| C115, C116 | the faces of tetrahedron and hexahedron are listed inside out compared to cube and octahedron, so hidden-surface removal keeps the hidden ones; the edges of tetrahedron and octahedron do not have the documented length; the two rings of the icosahedron are too close together, so that its ten middle faces are not regular; the corners of the decahedron are rounded, so that its edges differ |
| C116 | `perspective` mirrors the solid: with no rotation at all a coordinate changes sign |
| C117 | `spherevert` puts the last pole at (0, 0, -r) whatever the centre; the tiles of a sphere are inside out |
| C118 | `surfplot3D` joins wrong points if the step does not divide the width, and divides by zero if the step is larger |
| C119 | `plotpolyfill` fills the notches of concave polygons and draws nothing if one point is outside the image |
| C120 | `iterbeziercurve` ignores the last control point; for a single point it draws a line from the origin; an open `iterbspline` ignores the first control point |
| C121 | `floatregpolygonvert` gives more corners than requested if the number does not divide 360 (8 for 7), and raises ValueError above 360 |
| C122 | `piechart` of two equal halves shows only the second; `drawarc` ignores `showoutline`, and on small circles fills a segment in place of the sector |
| C123 | `histogram2D` reserves the last bin for the greatest value and raises ZeroDivisionError for constant data or one bin |
| C124 | `itergetneighbors` never yields row or column 0 from row or column 1, so edges there are found from one side only |
| C125 | `autocropimg2file` saves nothing if the content reaches the last row or column, and raises IndexError for an image of one colour; the part saved has one more row and column than the edges found |
| C126 | `getimageregionbyRGB` looks at the bottom row only if rows end inside a byte |
| C127 | `setBMP2invshiftedmonochrome` with its default multiplier 20 leaves 64 shades of 256 |
| C128 | `dichromaticpal` never reaches the second colour: two colours from black to white are black and grey |
| C129 | `reduce24bitimagebits` puts the palette into the image only if all places are filled: a blue image becomes dark red |
| C129 | `reduce24bitimagebits` never uses black for black pixels: they become the darkest other entry |
| C130 | `RGB2HSL` gives the hue 360 for some reds |
| C131 | `filledgradrect` and `filleddichromaticgradrect` take the column of the image instead of that of the rectangle: a rectangle its own width from the left has only the second colour |
| C133 | `gradellipse` makes both axes smaller by the same amount: for different axes the gradient does not go from the centre to the edge |
| C133 | `gradcircle`, `graddichromiccircle`, `sphere` and `orb` paint one pixel outside the circle |
| C134, C135 | enlarged glyphs lose the right halves of squares at odd columns of 4-bit images (`C134_false`) and get the palette entry nearest to `(0, 0, c)` on 8-bit images; `C134_glyph_depths` and `C135_text_depths` say what is painted |
| C136 | the background of text files with 4 bits and an odd width misses the last column (`C136_textfile_depths`) |
| C137 | `plotreversestring` puts the last line of a text first |
| C137 | `plotstringupsidedown` reverses the order of the letters, `plotstringupsidedownasdots` does not |
| C138 | `magnifyNtimescircregion` and `pixelizenxncircregion` leave out the right end of every row of the disc |
| C138 | `pixelizenxncircregion` takes its squares `H % n` rows too low if `n` does not divide the height |
| C138 | `pixelizenxn` and `pixelizenxncircregion` make the last square of a row black if a row has an odd number of squares |
| C138 | `pixelizenxncircregion` shortens the file if the disc reaches beyond the last whole square |
| C140 | `colorcycle2dir` makes the directory and then raises `TypeError` for images of 2 or 2^24 colours |
| C142 | `userdef2Dcooordsys2screenxy` rejects values beyond the right or top limit only, not values before the start of an axis |
| C144 | `XYscatterplot` draws the circles and discs of data beyond the limits in the upper left corner of the image |
| C144 | `XYscatterplot` raises `ZeroDivisionError` if the regression line is horizontal and above the plot |
| C144 | the regression line of `XYscatterplot` begins at (-1, -1) if it is above the plot at the start of the axis |
| C145 | `plotpolyfillist` computes the brightness -1 for a face that looks exactly along the negative third axis and fails with `OverflowError` |
| C147 | `iterhypotrochoid` uses the ratio `a / b + 1` of an epicycloid instead of `a / b - 1`, and the wrong sign, so its circle does not roll inside the other one |
| C147 | `iterspirograph` turns the wheel in the wrong direction (the sign of the second sine): a wheel of half the radius draws a circle instead of a diameter |
| C147 | `itercircleinvolute` draws a spiral of Archimedes that begins at the centre, not the involute of the circle |
| C149 | `itereggcurve` takes the root of `4 * b * x + k` instead of `4 * b * x + k ** 2`, so the egg is cut off after about half of its length |
| C150 | `plotflower` on images with a palette uses only the blue part of the colour, so a flower without blue has one colour |
| C151 | `lambdafn` and `barnsleytree` use the radius 2 for all parameters: with small ones points are counted as outside whose orbits are bounded (`C151_lambda_false`, `C151_tree_false`) |
| C151 | `multisuperellipse` returns a float, not a whole number, which cannot be stored in an image with a palette of 256 colours |
| C154 | `savenewtonsfractal2file` raises `TypeError` for images with a palette and two or three lists of colour factors |
| C155 | `symmetriciconattractorlist` adds `- o c i` with the conjugate `c` of `z` where the map of Field and Golubitsky has `o i z`: with `o` the icon loses its symmetry (`C155_symmetric_wrong`) |
| C156 | `plotattractor` can miss the last colour for the most hit bin by rounding, and a picture with two colours can be all black (`C156_bright_wrong`); points in one column or bins hit equally often raise `ZeroDivisionError` |
| C157 | `plotbmpastext` stops one row early: the last row is never printed and a one-row image gives no text (`C157_last_wrong`) |
| C160 | `distancetable` looks up positions by value: with a repeated point its second position is missing and other pairs occur twice (`C160_repeated_wrong`) |
| C161 | `adjustcolordicttopal` maps black to a colour that is not black although the palette has black (`C161_black_wrong`); `getdefaultlumrange` has the key `' midasc'` with a leading space (`C161_ranges_wrong`) |
| C162 | `savehilbertcurve2file` with orientation 1 exchanges width and height: in images that are not square the curve leaves the image or fills only a part (`C162_turned_wrong`) |
| C164 | X11 dictionaries: hue of `aqua` and factors of `darkblue` do not belong to the colour (`C164_x11_wrong`); `darkgray`, `darkslategrey`, `webgray`, `x11gray` and `darkred` are overwritten by a later entry with the same name and another colour (`C164_spelling_wrong`) |
| C166 | `hhmmsselaspedtime` writes nanoseconds without leading zeros: one second and five nanoseconds becomes `00:00:01.5` (`C166_false`, `C166_exact`) |
| C169 | `makecharbuf` takes the height from the digit 0 and does not check it: a glyph of another height shifts all later ones (`C169_makecharbuf_wrong`) |
| C172 | halves are rounded up or down by chance of the float errors, so that equal exact saturations get different numbers (`C172_halves_wrong`) |
| C173 | `flipvertical` followed by `flipXY` turns 1- and 4-bit images one way and 8- and 24-bit images the other way (`C173_direction_wrong`) |
| C174 | `line` moves each coordinate of an end point to the edge: lines that leave the image are bent, lines beside the image appear on its edge (`C174_clip_false`) |
| C174 | the points of a line depend on its direction (`C174_reverse_false`) |
| C179 | each call of saveBMP makes PATH longer when the directory of the package contains the separator; without PATH the new one ends in an empty entry, the current directory (`C179_grows`, `C179_empty`) |
| C180 | the order of separate figures matters on 4-bit images, where a row of one pixel in an odd column is painted one column to the left (`C180_order_wrong`) |
| C183 | a line drawn into a part of an image is not the part of the line if it leaves the part (`C183_line_wrong`) |
| C184 | filling a rectangle of an 8-bit image with one colour number gives another number after a change of an unrelated palette entry (`C184_box_wrong`) |
| C170 | texts of discs of side 2 on 4-bit images leave no trace at even columns (`C170_dots_wrong`) |
| C170 | mirrored texts lack the last column of their glyphs, so that in the 8x14 sans serif font `P` and `R` look the same (`C170_mirrored_wrong`) |
| C187 | `matchRGBtodefault4bitpal` exchanges red and blue: pure blue is matched to number 9, pure red, in the default palette; dark colours of the palette are matched to bright ones (`C187_match_false`) |
| C187 | `setbmppalwithBGRlist` with entries of four numbers makes the file longer and moves all pixels (`C187_bgra_wrong`) |
| C135 | Texts of discs left of the image delete bytes of the file, e.g. `plotstringasdots` at column -24 of a 2×2 image of 24 bits (`C135_far_wrong`) |
| C192 | Lines at 45 degrees are shifted by one row, also after exchanging the axes, so that they do not follow the image (`C192_diagonal_wrong`) |
| C196 | On 1-bit images even colours over 1 are 0 for slanted lines, 1 for all other figures; on 4-bit images slanted lines raise `OverflowError` (or `IndexError`, see `C196_slanted_raises`) for negative colours, on 8-bit images circles for all colours outside 0..255; the other figures take the remainder. On 24-bit images circles outside of the image and discs above or below it raise `OverflowError` though nothing is to be drawn |
| C163 | A thin snowflake with a line that runs diagonally up to the first row stops with an IndexError in images of 16 and 256 colours, for example radius 47, order 4, angle 60 (`C163_top_false`). |
| C197 | A filled rectangle on an 8-bit image is no stencil: which colour it has depends on the palette (`C197_box_wrong`) |
| C36 | pasterect never ends for selections whose rows have 256, 512, ... bytes (C36_endless) |
| C198 | The offset functions add fixed header sizes (54, 62, 118, 1078) instead of the offset in the file: files with longer headers or shorter palettes show wrong pixels or raise IndexError (`C198_false`), and plotting changes bytes outside the picture (`C198_plot_wrong`); the whole-row functions use the offset of the file (`C198_disagree`) |
| C198 | Files with the rows from the top (negative height) get a height of 2^24 less the real one and no pixel can be read (`C198_top_exact`); palettes behind longer info headers are misread (`C198_palette_wrong`) |
| C199 | On 24-bit files that were cut off, plotting a missing pixel raises no error but puts the colour at the end of the file, so that another pixel changes (`C199_false`, `C199_plot`) |
| C200 | A vertical line in a number above 0xffffff (or below 0) raises `OverflowError` on 24-bit images after its blue and green components were written (`C200_vertline_left`); a diagonal into the first row of a 4- or 8-bit image raises `IndexError` after its points were written (`C200_diagonal_left`), and so do discs right of 4-bit images (`C200_disc_wrong`); a grid with vertical step 0 raises `ValueError` after its columns (`C200_grid_zero_y`); a slanted line in a negative number on a 4-bit image raises `OverflowError` after it has changed the pixel beside its start (`C200_negative_false`); a palette with a wrong colour is set up to that colour (`C200_setbmppal_left`); a text with a character that the font does not have raises `IndexError` with the text before it drawn (`C200_text_left`), an upside down text with the text after it drawn (`C200_upsidedown_after`) |
| C201 | `fliphorizontal`, `mirrorleft` and `mirrorright` make the unused half byte or bits at the end of a row visible (`C201_false`) |
| C202 | a column in a number that is no colour raises an exception, but only after its blue and green bytes are written (`C202_false`) |
| C118 | `surfplot3D` can name a corner that is not in its list of points (`C118_corner_wrong`) |
| C124 | if the rows do not consist of whole bytes, only the bottom row is compared, and no edges above the two lowest rows are found (`C124_rows_unseen`) |
| C127 | a shifted monochrome palette of 16 colours holds shades that the palette without the shift does not have (`C127_shift_false`) |
| C143 | a grid that is not in the image as a whole is left out silently (`C143_grid_left_out`) |
| C145 | a face with a boundary pixel outside the image is not filled (`C145_edge_false`) |
| C200, C202 | a slanted line in a negative number raises an exception on a 4-bit image, but adds the number to the bytes of its first column before, which changes the pixels of the column beside it as well (`C200_negative_false`, `C200_negative_exact`) |
| C203 | each further attempt to draw a slanted line in a negative number on a 4-bit image changes the pixels beside its start once more (`C203_retry_false`), until after at most fifteen the picture stays (`C203_retry_ends`) |

## 7. Not modelled

Timing output, progress bars, the console, sound and the operating system are not modelled. Trigonometry is modelled
only where a property does not depend on the rounding of `math`/`cmath`; the powers of gamma correction enter as
an arbitrary function on bytes. Functions without a definition in the model (all others have one, cited at the
definition):

- `funcmeta.py` (0 of 1 modelled): getfuncmetastr.
