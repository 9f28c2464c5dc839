{"id": "C01", "title": "A new bitmap is a valid BMP file with the requested geometry", "statement": "newBMP(w,h,bits) returns a byte array that is a well-formed BMP file: it starts with \"BM\", the file-size field equals the number of bytes, the data-offset field equals 54 plus the palette size, the width/height/bit-count fields hold exactly w, h and bits, and the array length is data offset + h * row length. Every pixel reads back as colour 0 and getmaxx/getmaxy/getmaxxyandbits/getmaxcolors report the requested values.", "quantifier": "for every width and height from 0 to 2^24-1 and every supported bit depth 1, 4, 8, 24", "why_tests_cant": "the space of sizes is about 2^50; tests try a handful of sizes and never the ones where row padding or a header byte boundary changes", "anchors": ["pythonbmp/BITMAPlib.py: newBMP, _setmeta, _bmmeta, _getbmflsz, getmaxx, getmaxy, getmaxxyandbits, getmaxcolors", "pythonbmp/inttools.py: writeint, readint", "pythonbmp/bmpconstants.py"]}
{"id": "C02", "title": "Unsupported bit depths never produce a bitmap", "statement": "newBMP(w,h,bits) raises an exception for every bit depth other than 1, 4, 8 and 24; it never returns an array.", "quantifier": "for every integer bit depth (negative, zero, arbitrarily large) and all integer sizes", "why_tests_cant": "the set of wrong depths is infinite and several different exception paths are involved", "anchors": ["pythonbmp/BITMAPlib.py: newBMP, _xbytes, _getbmflsz", "pythonbmp/bmpconstants.py: bmpheadersizedict"]}
{"id": "C03", "title": "Reported size equals requested size for any image size", "statement": "getmaxxy(newBMP(w,h,bits)) == (w,h).", "quantifier": "for all non-negative widths and heights the 4-byte BMP header fields can hold", "why_tests_cant": "a test would have to allocate images with a dimension of 16 million or more", "anchors": ["pythonbmp/BITMAPlib.py: newBMP, _setx, _sety, getmaxx, getmaxy", "pythonbmp/inttools.py: writeint, readint"]}
{"id": "C04", "title": "Row length follows the BMP padding rule", "statement": "The number of bytes per stored row is the smallest multiple of 4 that holds w pixels of the given depth, i.e. 4*ceil(w*bits/32), and the padding count the library computes is exactly row length minus the unpadded byte count.", "quantifier": "for every width and every supported bit depth", "why_tests_cant": "only the residues of a few widths are ever sampled", "anchors": ["pythonbmp/BITMAPlib.py: _xbytes, _pdbytes, _xchrcnt"]}
{"id": "C05", "title": "A plotted pixel reads back", "statement": "After plotxybit(bmp,x,y,c) with (x,y) inside the image, getxybit(bmp,x,y) returns c reduced to the depth of the image: c itself for 24-bit (0 <= c < 2^24), c mod 256 for 8-bit, c mod 16 for 4-bit, and 1 if c > 0 else 0 for 1-bit.", "quantifier": "for every well-formed image, every in-range coordinate, every integer colour (0..2^24-1 for 24-bit)", "why_tests_cant": "images x coordinates x colours is unbounded; packing of several pixels per byte gives position-dependent code", "anchors": ["pythonbmp/BITMAPlib.py: plotxybit, getxybit, _24bmofhd, _8bmofhd, _4bmofhd, _1bmofhd"]}
{"id": "C06", "title": "Plotting one pixel changes nothing else", "statement": "plotxybit(bmp,x,y,c) leaves every other pixel, the whole header, the palette and the file length unchanged, including neighbours stored in the same byte.", "quantifier": "for every well-formed image, every pair of distinct coordinates and every colour", "why_tests_cant": "needs a check of all other pixels for all images", "anchors": ["pythonbmp/BITMAPlib.py: plotxybit"]}
{"id": "C07", "title": "Coordinates outside the image are ignored", "statement": "For (x,y) outside the image plotxybit leaves the array bit-for-bit unchanged, getxybit returns -1 and getRGBxybit returns the empty list; no exception is raised.", "quantifier": "for every well-formed image and all integer coordinates, negative or huge", "why_tests_cant": "Python negative indices silently wrap, so every out-of-range direction must be excluded", "anchors": ["pythonbmp/BITMAPlib.py: plotxybit, getxybit, getRGBxybit, isinBMPrectbnd"]}
{"id": "C08", "title": "A drawing history behaves like a map from coordinates to colours", "statement": "After any sequence of plotxybit calls, getxybit at any point returns the colour of the last in-range plot at that point (reduced to the depth), or the original colour if there was none; off-image plots in the sequence have no effect.", "quantifier": "for every well-formed image, every finite sequence of plot calls, every coordinate", "why_tests_cant": "histories are unbounded", "anchors": ["pythonbmp/BITMAPlib.py: plotxybit, getxybit"]}
{"id": "C09", "title": "RGB access agrees with indexed access", "statement": "getRGBxybit returns [r,g,b] of the pixel: the stored components for 24-bit and the palette entry selected by getxybit otherwise; plotRGBxybit followed by getRGBxybit returns the same triple on 24-bit images and touches no other pixel.", "quantifier": "for every well-formed image, every in-range coordinate and every byte triple", "why_tests_cant": "2^24 triples at every position of every image", "anchors": ["pythonbmp/BITMAPlib.py: getRGBxybit, plotRGBxybit, getRGBpal"]}
{"id": "C10", "title": "A 24-bit colour outside 0..2^24-1 is rejected, not stored", "statement": "plotxybit on a 24-bit image with an in-range coordinate and a colour outside 0..2^24-1 raises and never returns a modified image; paletted images never raise because the colour is reduced to the depth.", "quantifier": "for every well-formed image, in-range coordinate and every integer colour", "why_tests_cant": "infinitely many wrong colours", "anchors": ["pythonbmp/BITMAPlib.py: plotxybit"]}
{"id": "C11", "title": "swapcolors exchanges two pixels", "statement": "swapcolors(bmp,p,q) exchanges the colours at p and q and leaves every other pixel, the header and palette unchanged; doing it twice restores the image; p = q is a no-op.", "quantifier": "for every well-formed image and all in-range p, q", "why_tests_cant": "all pairs of positions, including two pixels in one byte", "anchors": ["pythonbmp/BITMAPlib.py: swapcolors, getxybitvec, intplotvecxypoint"]}
{"id": "C12", "title": "Palette entries are independent registers", "statement": "setRGBpal(bmp,c,r,g,b) then getRGBpal(bmp,c) gives [r,g,b]; other palette entries, all pixels, the header and the length are unchanged.", "quantifier": "for every well-formed paletted image, every palette index and every byte triple", "why_tests_cant": "palette size x 2^24 values, plus the frame condition", "anchors": ["pythonbmp/BITMAPlib.py: setRGBpal, getRGBpal"]}
{"id": "C13", "title": "Setting the whole palette", "statement": "setbmppal(bmp,pal) with exactly 2^bits byte triples makes getallRGBpal(bmp) == pal and leaves pixels and header alone; with any other length it changes nothing.", "quantifier": "for every well-formed paletted image and every list of triples", "why_tests_cant": "unbounded lists and images", "anchors": ["pythonbmp/BITMAPlib.py: setbmppal, getallRGBpal, getmaxcolors"]}
{"id": "C14", "title": "Palette shifting is a rotation", "statement": "palshift(bmp,k) on 4- and 8-bit images rotates the palette left by |k| mod 2^bits: entry i becomes the old entry (i+|k|) mod 2^bits; pixels and header are untouched; shifts add up, and a full cycle restores the palette. On 1- and 24-bit images nothing changes.", "quantifier": "for every well-formed image and every integer shift", "why_tests_cant": "unbounded shifts, all palettes", "anchors": ["pythonbmp/BITMAPlib.py: palshift, itercolorcycle", "pythonbmp/paramchecks.py: func4and8bitonly"]}
{"id": "C15", "title": "Saving and loading is lossless", "statement": "loadBMP of a file written by saveBMP(bmp) returns exactly bmp.", "quantifier": "for every well-formed image", "why_tests_cant": "all images; depends on the size field that loading trusts", "anchors": ["pythonbmp/BITMAPlib.py: saveBMP, loadBMP", "pythonbmp/chartools.py: char2int"]}
{"id": "C16", "title": "loadBMP accepts only BMP files and reads no more than the declared size", "statement": "loadBMP returns an empty array when the content does not start with \"BM\" or declares a size of at most 54 bytes; otherwise it returns the prefix of the content of the declared length (the whole content if shorter).", "quantifier": "for every file content (any byte string, including empty and truncated ones)", "why_tests_cant": "all byte strings", "anchors": ["pythonbmp/BITMAPlib.py: loadBMP", "pythonbmp/chartools.py: char2int"]}
{"id": "C17", "title": "Block transfer round trip and bounds", "statement": "BMPbitBLTput(bmp,off,buf) followed by BMPbitBLTget(bmp,off,len(buf)) returns buf whenever the block lies inside the pixel area (non-empty); blocks not inside the pixel area are rejected leaving the array unchanged; header, palette, length and all bytes outside the block never change.", "quantifier": "for every well-formed image, every integer offset and every byte buffer", "why_tests_cant": "unbounded buffers and offsets, Python slice semantics for negative indices", "anchors": ["pythonbmp/BITMAPlib.py: BMPbitBLTput, BMPbitBLTget"]}
{"id": "C18", "title": "Vertical block read returns the column", "statement": "vertBMPbitBLTget(bmp,x,y1,y2) on 8- and 24-bit images returns the pixels of column x from the lower to the upper clipped row, in file order.", "quantifier": "for every well-formed 8/24-bit image, every column in range and every pair of rows that meets the image", "why_tests_cant": "depends on extended-slice arithmetic for every width, row pair", "anchors": ["pythonbmp/BITMAPlib.py: vertBMPbitBLTget"]}
{"id": "C19", "title": "horiline paints exactly the clipped segment", "statement": "horiline(bmp,y,x1,x2,c) with y inside the image sets exactly the pixels (x,y) with min(x1,x2) <= x <= max(x1,x2) and 0 <= x < width to colour c and changes nothing else; with y outside nothing changes.", "quantifier": "for every well-formed image of any depth, all integer x1, x2, y and every valid colour", "why_tests_cant": "clipping and nibble packing cases at all positions", "anchors": ["pythonbmp/BITMAPlib.py: horiline"]}
{"id": "C20", "title": "vertline paints exactly the clipped segment", "statement": "vertline(bmp,x,y1,y2,c) sets exactly the pixels (x,y) between y1 and y2 inside the image to colour c and changes nothing else; a column outside the image changes nothing.", "quantifier": "for every well-formed image of any depth, all integer x, y1, y2 and every valid colour", "why_tests_cant": "extended slice assignment with clipped bounds; wrap-around of negative indices only shows for rows far outside", "anchors": ["pythonbmp/BITMAPlib.py: vertline"]}
{"id": "C21", "title": "filledrect paints exactly the rectangle", "statement": "filledrect(bmp,x1,y1,x2,y2,c) with both corners inside the image sets exactly the pixels of the closed rectangle (corners in any order) and changes nothing else; if a corner is outside, nothing changes.", "quantifier": "for every well-formed image, all integer corners and every valid colour", "why_tests_cant": "all rectangles in all images", "anchors": ["pythonbmp/BITMAPlib.py: filledrect", "pythonbmp/paramchecks.py: entirerectinboundary"]}
{"id": "C22", "title": "filledrect paints the requested palette index on 8-bit images", "statement": "On an 8-bit image filledrect with colour index c paints index c, like plotxybit and horiline do.", "quantifier": "for every 8-bit image, palette and index", "why_tests_cant": "depends on the palette contents", "anchors": ["pythonbmp/BITMAPlib.py: filledrect", "pythonbmp/colors.py: matchRGBtopal"]}
{"id": "C23", "title": "The line rasteriser is a connected path between its end points", "statement": "iterline(p1,p2) yields points that start at p1, end at p2, move by at most one pixel in each direction, stay inside the bounding box of p1 and p2, and deviate from the ideal line by at most one pixel.", "quantifier": "for all integer end points", "why_tests_cant": "unbounded lengths and slopes", "anchors": ["pythonbmp/primitives2D.py: iterline"]}
{"id": "C24", "title": "line paints exactly the rasterised points and never leaves the image", "statement": "line(bmp,x1,y1,x2,y2,c) clamps the end points to the image, paints exactly the points of the rasterised segment with colour c, and changes no other pixel, no header byte and no palette byte.", "quantifier": "for every well-formed image, all integer end points and valid colours", "why_tests_cant": "unbounded; a single off-by-one write lands in the header or the palette", "anchors": ["pythonbmp/BITMAPlib.py: line", "pythonbmp/primitives2D.py: iterline"]}
{"id": "C25", "title": "Circle points are accurate and symmetric", "statement": "Every point (dx,dy) produced for a circle of radius r satisfies 0 <= dx,dy <= r and |dx^2+dy^2-r^2| <= max(dx,dy) (within about half a pixel of the true circle), the set is symmetric under exchanging dx and dy, every column 0..r occurs, and generation terminates.", "quantifier": "for every non-negative integer radius", "why_tests_cant": "all radii; the decision variable grows as r^4", "anchors": ["pythonbmp/primitives2D.py: itercirclepart, itercircle"]}
{"id": "C26", "title": "circle paints exactly the circle points inside the image", "statement": "circle(bmp,x,y,r,c) paints exactly the circle points that fall inside the image and changes nothing else, wherever the centre is.", "quantifier": "for every well-formed image, integer centre, non-negative radius and valid colour", "why_tests_cant": "clipped and unclipped code paths differ", "anchors": ["pythonbmp/BITMAPlib.py: circle", "pythonbmp/primitives2D.py: itercircle, entirecircleisinboundary"]}
{"id": "C27", "title": "filledcircle fills each scan line once and stays in the disc", "statement": "The scan-line generator for filled circles yields every row offset 0..r exactly once with a half width w satisfying the circle accuracy bound, and filledcircle paints exactly the clipped union of these spans.", "quantifier": "for every radius, centre, image and valid colour", "why_tests_cant": "unbounded radii; duplicates/gaps at the octant seam appear only for some radii", "anchors": ["pythonbmp/BITMAPlib.py: filledcircle", "pythonbmp/primitives2D.py: itercirclepartlineedge"]}
{"id": "C28", "title": "flipvertical turns the image upside down", "statement": "flipvertical moves the pixel at (x,y) to (x,h-1-y) for every pixel, keeps header, palette and length, and is its own inverse byte for byte.", "quantifier": "for every well-formed image of any depth and size", "why_tests_cant": "all images, odd and even heights", "anchors": ["pythonbmp/BITMAPlib.py: flipvertical, verttrans"]}
{"id": "C29", "title": "mirrortop / mirrorbottom duplicate one half", "statement": "After mirrortop the lower half is the reflection of the unchanged upper half (mirrorbottom: the other way round); the result is symmetric under flipvertical and applying it again changes nothing.", "quantifier": "for every well-formed image of any depth and size", "why_tests_cant": "all images, odd and even heights", "anchors": ["pythonbmp/BITMAPlib.py: mirrortop, mirrorbottom, verttrans"]}
{"id": "C30", "title": "fliphorizontal mirrors every row", "statement": "fliphorizontal moves the pixel at (x,y) to (w-1-x,y) for every pixel, keeps header, palette and length, and applying it twice restores the image.", "quantifier": "for every well-formed image of any depth and size", "why_tests_cant": "all images; packed depths depend on width modulo 2 or 8", "anchors": ["pythonbmp/BITMAPlib.py: fliphorizontal, fliphorizontalregion, horizontalbulkswap", "pythonbmp/bufferflip.py: flipnibbleinbuf, rotatebitsinbuf", "pythonbmp/mathlib.py: rotatebits"]}
{"id": "C31", "title": "mirrorleft / mirrorright duplicate one half", "statement": "After mirrorleft the right half is the mirror image of the unchanged left half (mirrorright: the other way round); nothing else changes and the operation is idempotent.", "quantifier": "for every well-formed image of any depth and size", "why_tests_cant": "all images; packed depths depend on width modulo 2 or 8", "anchors": ["pythonbmp/BITMAPlib.py: mirrorleft, mirrorright, mirrorleftinregion, mirrorrightinregion, horizontalbulkswap"]}
{"id": "C32", "title": "invertimagebits is a complement", "statement": "invertimagebits replaces every pixel colour c by (2^bits - 1) - c, keeps header, palette and length, and is its own inverse.", "quantifier": "for every well-formed image", "why_tests_cant": "all images", "anchors": ["pythonbmp/BITMAPlib.py: invertimagebits"]}
{"id": "C33", "title": "invertregion complements exactly the region", "statement": "invertregion(bmp,x1,y1,x2,y2) complements exactly the pixels of the closed rectangle and changes nothing else; applied twice it restores the image; regions not inside the image are rejected without change.", "quantifier": "for every well-formed image and all integer corners", "why_tests_cant": "all regions; packed depths touch shared bytes", "anchors": ["pythonbmp/BITMAPlib.py: invertregion, itercopyrect, itergetcolorfromrectregion"]}
{"id": "C34", "title": "flipXY transposes the image consistently for every depth", "statement": "flipXY returns a new image with width and height exchanged whose pixel (a,b) is the source pixel (b,a), with the palette preserved, for every bit depth.", "quantifier": "for every well-formed image", "why_tests_cant": "all images and depths; depths use different code", "anchors": ["pythonbmp/BITMAPlib.py: flipXY, vertBMPbitBLTget, iterimagecolor"]}
{"id": "C35", "title": "crop returns exactly the selected rectangle", "statement": "crop(bmp,x1,y1,x2,y2) returns an image of size (|x2-x1|+1) x (|y2-y1|+1) whose pixel (a,b) looks like the source pixel at the rectangle origin plus (a,b) (same index and same RGB); selections not inside the image are rejected.", "quantifier": "for every well-formed image and all integer corners", "why_tests_cant": "all rectangles in all images", "anchors": ["pythonbmp/BITMAPlib.py: crop"]}
{"id": "C36", "title": "copyrect / pasterect round trip", "statement": "pasterect(bmp,copyrect(bmp,x1,y1,x2,y2),x1,y1) leaves the image unchanged, and pasting elsewhere reproduces the copied pixels at the new position.", "quantifier": "for every well-formed image and every rectangle inside it", "why_tests_cant": "all rectangles, sizes above 255 overflow single header bytes", "anchors": ["pythonbmp/BITMAPlib.py: copyrect, pasterect, listinBMPrecbnd", "pythonbmp/inttools.py: int2buf, buf2int"]}
{"id": "C37", "title": "upgradeto24bitimage preserves what is seen", "statement": "upgradeto24bitimage returns a 24-bit image of the same size in which getRGBxybit gives the same RGB as in the source for every pixel.", "quantifier": "for every well-formed image of any depth and size", "why_tests_cant": "all images; packed depths depend on width modulo 2 or 8", "anchors": ["pythonbmp/BITMAPlib.py: upgradeto24bitimage, convertbufto24bit, itercopyrect", "pythonbmp/bufresize.py: adjustbufsize"]}
{"id": "C38", "title": "iterimagecolor visits every pixel exactly once with its colour", "statement": "The sequence produced by iterimagecolor consists of ((x,y), getxybit(x,y)) for every pixel of the image, each exactly once.", "quantifier": "for every well-formed image of any depth and positive width", "why_tests_cant": "all widths modulo padding", "anchors": ["pythonbmp/BITMAPlib.py: iterimagecolor"]}
{"id": "C39", "title": "iterimageRGB visits every pixel exactly once with its RGB", "statement": "The sequence produced by iterimageRGB consists of ((x,y), RGB of the pixel) for every pixel of the image, each exactly once.", "quantifier": "for every well-formed image of any depth and positive width", "why_tests_cant": "all widths modulo padding", "anchors": ["pythonbmp/BITMAPlib.py: iterimageRGB"]}
{"id": "C40", "title": "resizeNtimesbigger replicates pixels", "statement": "resizeNtimesbigger(bmp,n) returns an image n times as wide and high in which pixel (x,y) has the colour of source pixel (x div n, y div n), with the same palette.", "quantifier": "for every well-formed image and every n >= 1", "why_tests_cant": "all images, factors and packings", "anchors": ["pythonbmp/BITMAPlib.py: resizeNtimesbigger", "pythonbmp/bufresize.py: resizebufNtimesbigger, pack4bitbuf, packbitlisttobuf", "pythonbmp/buffersplit.py: altsplitbuf3way"]}
{"id": "C41", "title": "RGB triples and colour integers are in bijection", "statement": "int2RGB, int2RGBlist, int2RGBarr, int2BGRarr and RGB2int are mutually inverse between byte triples and 0..2^24-1, and int2RGBarr/int2BGRarr raise outside that range.", "quantifier": "for all byte triples and all integers", "why_tests_cant": "2^24 values and infinitely many invalid ones", "anchors": ["pythonbmp/colors.py: int2RGB, int2RGBlist, int2RGBarr, int2BGRarr, RGB2int, RGB2BGRarr"]}
{"id": "C42", "title": "Palette matching returns an exact or nearest entry", "statement": "matchRGBtopal(rgb,pal) returns a valid index; if rgb occurs in pal it returns its first position; otherwise the entry returned is at minimal Euclidean distance among the palette entries.", "quantifier": "for every colour and every palette", "why_tests_cant": "all palettes x all colours", "anchors": ["pythonbmp/colors.py: matchRGBtopal"]}
{"id": "C43", "title": "Byte reversal helpers are involutions", "statement": "Reversing the bit order of a byte and swapping its nibbles are involutions, and flipbuf of a row buffer reverses its pixel order for every depth.", "quantifier": "for all bytes and all buffers", "why_tests_cant": "all buffers", "anchors": ["pythonbmp/mathlib.py: rotatebits", "pythonbmp/bufferflip.py: flipnibbleinbuf, rotatebitsinbuf, flip24bitbuf, flipbuf"]}
{"id": "C44", "title": "Rectangle guards reject exactly the rectangles that leave the image", "statement": "Operations guarded by the rectangle decorators run exactly when both corners are inside the image (and the depth is allowed); otherwise the image is returned unchanged.", "quantifier": "for every image, all integer corners and any guarded operation", "why_tests_cant": "all operations and all corners", "anchors": ["pythonbmp/paramchecks.py: entirerectinboundary, func24bitonlyandentirerectinboundary, func8and24bitonlyandentirerectinboundary"]}
{"id": "C45", "title": "Circle guards reject exactly the circles that leave the image", "statement": "Operations guarded by the circle decorators run exactly when the bounding square of the circle is inside the image (and the depth is allowed).", "quantifier": "for every image size, integer centre and radius", "why_tests_cant": "needs non-square images and all positions", "anchors": ["pythonbmp/paramchecks.py: entirecircleinboundary, func24bitonlyandentirecircleinboundary, func8and24bitonlyandentirecircleinboundary", "pythonbmp/primitives2D.py: entirecircleisinboundary"]}
{"id": "C46", "title": "List bounds predicates mean \"all points are inside\"", "statement": "listinBMPrecbnd and listinrecbnd return True exactly when every point of the list lies inside the bounds.", "quantifier": "for every list of points and every bounds", "why_tests_cant": "unbounded lists", "anchors": ["pythonbmp/BITMAPlib.py: listinBMPrecbnd", "pythonbmp/primitives2D.py: listinrecbnd, isinrectbnd"]}
{"id": "C47", "title": "Clamping and ordering helpers", "statement": "setmin/setmax/setminmax/clamp return the nearest value of the allowed interval and are idempotent; sortrecpoints returns the same rectangle with ordered corners.", "quantifier": "for all integers (and all intervals with min <= max)", "why_tests_cant": "infinite domain", "anchors": ["pythonbmp/mathlib.py: setmin, setmax, setminmax, clamp, isinrange", "pythonbmp/primitives2D.py: sortrecpoints", "pythonbmp/conditionaltools.py: iif, swapif"]}
{"id": "C48", "title": "8-bit pattern (glyph) plotting paints exactly the set bits", "statement": "plot8bitpattern with scale 1 paints pixel (x+j, y+i) with the colour exactly when bit 7-j of row i of the pattern is set and the pixel is inside the image, and nothing else.", "quantifier": "for every image, position (also partly off the image), pattern of any height and colour", "why_tests_cant": "all patterns, positions and clippings", "anchors": ["pythonbmp/BITMAPlib.py: plot8bitpattern, plot8bitpatternwithfn"]}
{"id": "C49", "title": "Image comparison is exact", "statement": "imagediff of two images of equal size and depth yields an image that is all zero exactly when the pixel areas are equal; it is symmetric up to the palette; showsimilarparts of an image with itself is the image; images with different geometry produce no output.", "quantifier": "for all pairs of well-formed images", "why_tests_cant": "all pairs", "anchors": ["pythonbmp/BITMAPlib.py: imagecomp, imagediff, showsimilarparts, getBMPimgbytes, setBMPimgbytes", "pythonbmp/mathlib.py: xorvect, andvect"]}
{"id": "C50", "title": "The monochrome filter makes every pixel grey", "statement": "monofilterto24bitregion replaces each pixel (r,g,b) in the region by (m,m,m) with m = floor((r+g+b)/3), leaves all other pixels unchanged and is idempotent.", "quantifier": "for every well-formed 24-bit image and region", "why_tests_cant": "all images and regions", "anchors": ["pythonbmp/BITMAPlib.py: monofilterto24bitregion, _usebyrefnopar24bitfn2reg", "pythonbmp/colors.py: applymonochromefiltertoBGRbuf"]}
{"id": "C51", "title": "The colour histogram counts every pixel once", "statement": "colorhistogram(bmp) lists each colour that occurs with exactly its number of pixels, in descending order of count, so the counts sum to width * height.", "quantifier": "for every well-formed image of positive width", "why_tests_cant": "all images", "anchors": ["pythonbmp/BITMAPlib.py: colorhistogram, iterimagecolor", "pythonbmp/dicttools.py: dict2descorderlist"]}
{"id": "C52", "title": "Neighbour enumeration returns exactly the in-image neighbours", "statement": "itergetneighbors(v,mx,my,includecenter) yields each of the up to 8 neighbours of v inside 0..mx-1 x 0..my-1 exactly once (and v itself when requested).", "quantifier": "for all sizes and all points", "why_tests_cant": "all border and corner cases of all sizes", "anchors": ["pythonbmp/primitives2D.py: itergetneighbors"]}
{"id": "C53", "title": "fliphorizontalregion reflects exactly the rectangle", "statement": "fliphorizontalregion(bmp,x1,y1,x2,y2) moves the pixel at (x,y) of the closed rectangle to (x1+x2-x,y), leaves all other pixels, header and palette, undoes itself, and rejects rectangles not inside the image without change.", "quantifier": "for every well-formed image and all integer corners in any order", "why_tests_cant": "all regions in all depths; packed depths share bytes between pixels inside and outside the region", "anchors": ["pythonbmp/BITMAPlib.py: fliphorizontalregion, horizontalbulkswap", "pythonbmp/bufferflip.py: flipnibbleinbuf, rotatebitsinbuf"]}
{"id": "C54", "title": "mirrorleftinregion / mirrorrightinregion duplicate one half of the rectangle", "statement": "After mirrorleftinregion the right half of the rectangle is the reflection of its unchanged left half (mirrorrightinregion the other way round), nothing outside changes, and repeating the call changes nothing.", "quantifier": "for every well-formed image and all integer corners in any order", "why_tests_cant": "all regions in all depths", "anchors": ["pythonbmp/BITMAPlib.py: mirrorleftinregion, mirrorrightinregion, horizontalbulkswap"]}
{"id": "C55", "title": "Vertical region transforms affect exactly the rectangle", "statement": "flipverticalregion moves (x,y) of the rectangle to (x,y1+y2-y) and undoes itself; mirrortopinregion and mirrorbottominregion duplicate one half of the rectangle and are idempotent; nothing outside changes; rectangles not inside the image are rejected.", "quantifier": "for every well-formed image and all integer corners in any order", "why_tests_cant": "all regions in all depths", "anchors": ["pythonbmp/BITMAPlib.py: verttransregion, flipverticalregion, mirrortopinregion, mirrorbottominregion", "pythonbmp/bufresize.py: adjustxbufsize"]}
{"id": "C56", "title": "Corner mirrors build the image from one quarter", "statement": "mirrortopleft, mirrortopright, mirrorbottomleft and mirrorbottomright replace every pixel by the pixel of the named quarter that is its reflection in the two centre lines, keeping header and palette.", "quantifier": "for every well-formed image of any depth and size", "why_tests_cant": "all images; odd sizes share centre rows and columns", "anchors": ["pythonbmp/BITMAPlib.py: mirrortopleft, mirrortopright, mirrorbottomleft, mirrorbottomright"]}
{"id": "C57", "title": "convertselection2BMP turns a copied rectangle into an image", "statement": "convertselection2BMP(copyrect(bmp,x1,y1,x2,y2)) returns an image of exactly the size of the rectangle with the copied pixels.", "quantifier": "for every well-formed image and every rectangle inside it", "why_tests_cant": "all rectangles in all images", "anchors": ["pythonbmp/BITMAPlib.py: convertselection2BMP, copyrect, pasterect"]}
{"id": "C58", "title": "The colour filter scales each channel inside the region", "statement": "colorfilterto24bitregion(bmp,x1,y1,x2,y2,rgbfactors) multiplies the red, green and blue value of every pixel of the rectangle by its factor, leaves every other pixel, the header and the palette unchanged, and rejects rectangles that are not inside the image.", "quantifier": "for every well-formed 24-bit image, all corners in any order and all channel factors", "why_tests_cant": "all images, rectangles and factors", "anchors": ["pythonbmp/BITMAPlib.py: colorfilterto24bitregion, colorfilterto24bitimage", "pythonbmp/colors.py: applycolorfiltertoBGRbuf"]}
{"id": "C59", "title": "The brightness adjustment is a clamped scaling of the region", "statement": "brightnesseadjto24bitregion multiplies every channel of every pixel of the rectangle by the percentage, limits the result to 0..255, leaves everything else unchanged, rejects rectangles outside the image, and 100 percent changes nothing.", "quantifier": "for every well-formed 24-bit image, all corners in any order and all percentages", "why_tests_cant": "all images, rectangles and percentages", "anchors": ["pythonbmp/BITMAPlib.py: brightnesseadjto24bitregion, brightnesseadjto24bitimage", "pythonbmp/colors.py: applybrightnessadjtoBGRbuf"]}
{"id": "C60", "title": "The vertical brightness gradient treats row by row", "statement": "verticalbrightnessgradto24bitregion applies the brightness adjustment with its own percentage to every row of the rectangle and changes nothing else, for every rectangle inside the image.", "quantifier": "for every well-formed 24-bit image and all rectangles inside it", "why_tests_cant": "all images and rectangles, including rectangles of one row", "anchors": ["pythonbmp/BITMAPlib.py: verticalbrightnessgradto24bitregion", "pythonbmp/colors.py: applybrightnessadjtoBGRbuf"]}
{"id": "C61", "title": "Scaled patterns paint one square per set bit", "statement": "plot8bitpattern paints, for every set bit 7-j of row i, the square of side scale-pixspace at (x+j*scale, y+i*scale), and nothing else.", "quantifier": "for every image of any depth, position, pattern, scale, spacing and colour", "why_tests_cant": "all patterns, scales, positions and depths", "anchors": ["pythonbmp/BITMAPlib.py: plot8bitpattern, plot8bitpatternwithfn, filledrect"]}
{"id": "C62", "title": "Upside down patterns exchange the rows", "statement": "plot8bitpatternupsidedown paints the pattern with its rows in reverse order in the same place.", "quantifier": "for every image, position, pattern, scale and colour", "why_tests_cant": "all patterns, scales and positions", "anchors": ["pythonbmp/BITMAPlib.py: plot8bitpatternupsidedown, plot8bitpatternupsidedownwithfn"]}
{"id": "C63", "title": "Reversed patterns are mirrored left to right", "statement": "plotrotated8bitpattern paints the dot of row i and column j of the pattern in column 7-j.", "quantifier": "for every image, position, pattern of bytes, scale and colour", "why_tests_cant": "all patterns, scales and positions", "anchors": ["pythonbmp/BITMAPlib.py: plotrotated8bitpattern, plotrotated8bitpatternwithfn", "pythonbmp/inttools.py: rotatebits"]}
{"id": "C64", "title": "Sideways patterns are turned by a quarter", "statement": "plot8bitpatternsideway paints the dot of row i and column j at (x+i*scale, y-j*scale); with a list of colours row i has colour number i of the list, counted round and round; the italic variant leans the same way at every scale.", "quantifier": "for every image, position, pattern, scale, colour and list of colours", "why_tests_cant": "all patterns, scales and colour lists", "anchors": ["pythonbmp/BITMAPlib.py: plot8bitpatternsideway, plot8bitpatternsidewaywithfn, plotitalic8bitpatternsideway, plotitalic8bitpatternsidewaywithfn"]}
{"id": "C65", "title": "Italic patterns lean without leaving their cell", "statement": "plotitalic8bitpattern paints the pattern with each row moved right by an offset that is never negative and decreases from row to row by at most max(1, scale/2); the reversed and upside down variants do the same with the mirrored and the turned pattern.", "quantifier": "for every image, position, pattern and scale of at least 1", "why_tests_cant": "all patterns, heights, scales and positions", "anchors": ["pythonbmp/BITMAPlib.py: plotitalic8bitpattern, plotitalic8bitpatternwithfn, plotreverseditalic8bitpattern, plotupsidedownitalic8bitpattern"]}
{"id": "C66", "title": "Text puts every glyph in its column and line", "statement": "plotstring paints exactly the glyphs of the visible characters, the character after k others of its line (tabs count four) at k*(8*scale+space), lines font height*scale+space apart; plotstringvertical, plotstringsideway and plotitalicstring do the same in their directions; a character outside the font is an IndexError.", "quantifier": "for every image, position, string, font and scale", "why_tests_cant": "all strings and fonts", "anchors": ["pythonbmp/BITMAPlib.py: plotstring, plotstringfunc, plotstringvertical, plotstringsideway, plotitalicstring", "pythonbmp/fonts.py: getcharfont", "pythonbmp/chartools.py: enumletters"]}
{"id": "C67", "title": "The image made for a text is big enough", "statement": "plotstring2file and plotitalicstring2file make an image in which every dot of every visible character is painted over the background, none being cut off; computetextrowandcolcnt returns the width and the number of lines.", "quantifier": "for every string, font, scale of at least 1 and non-negative spacings", "why_tests_cant": "all strings with tabs and newlines, all fonts", "anchors": ["pythonbmp/BITMAPlib.py: plotstringfunc2file, plotstring2file, plotitalicstring2file", "pythonbmp/textgraphics.py: computetextrowandcolcnt"]}
{"id": "C68", "title": "Inverting a disc complements exactly the disc", "statement": "invertbitsincircregion replaces the colour of every pixel of the disc that lies in the image by its complement in the depth of the image and leaves every other pixel alone; a second call restores the file byte for byte.", "quantifier": "for every valid image of any depth and size, centre and radius", "why_tests_cant": "all depths, image sizes, centres and radii", "anchors": ["pythonbmp/BITMAPlib.py: invertbitsincircregion, _usenoparfn2circreg"]}
{"id": "C69", "title": "Disc filters apply their function to exactly the disc", "statement": "colorfiltercircregion and brightnessadjcircregion apply the byte function to the three colour components of every pixel of the disc and to no other byte; a disc that does not fit, or an image that is not 24-bit, is left alone.", "quantifier": "for every valid image, every centre and radius and every brightness function or colour filter", "why_tests_cant": "all radii and centres at image borders, all byte functions", "anchors": ["pythonbmp/BITMAPlib.py: brightnessadjcircregion, colorfiltercircregion, _use24btfn2circreg"]}
{"id": "C70", "title": "Monochrome filter on a disc makes exactly the disc grey", "statement": "monocircle replaces every pixel of the disc by its grey and leaves all others alone.", "quantifier": "for every valid 24-bit image, centre and radius", "why_tests_cant": "all images and discs", "anchors": ["pythonbmp/BITMAPlib.py: monocircle, _usenopar24btfn2circreg"]}
{"id": "C71", "title": "Copying a disc moves exactly the disc", "statement": "copycircregion puts at every pixel of the new disc the colour of the pixel at the same place of the old disc and leaves all others alone, also when the discs overlap; a disc that does not fit is rejected without change.", "quantifier": "for every valid image of any depth, old and new centre, and radius", "why_tests_cant": "overlapping discs, packed depths, discs at the borders", "anchors": ["pythonbmp/BITMAPlib.py: copycircregion, copycircregion2buf, pastecirularbuf"]}
{"id": "C72", "title": "Vertical flip of a disc mirrors exactly the disc and is an involution", "statement": "flipvertcircregion exchanges pixel (px, y+d) and (px, y-d) for every pixel of the disc and leaves all other pixels alone; a second call restores the file; mirrortopincircregion and mirrorbottomincircregion copy the one half to the other.", "quantifier": "for every valid image, and every disc inside it", "why_tests_cant": "all discs, overlapping rows, header overwrites", "anchors": ["pythonbmp/BITMAPlib.py: flipvertcircregion, mirrortopincircregion, mirrorbottomincircregion, verttransformincircregion"]}
{"id": "C73", "title": "Horizontal flip of a disc mirrors exactly the disc and is an involution", "statement": "fliphoricircregion exchanges pixel (x+d, py) and (x-d, py) for every pixel of the disc and leaves all other pixels alone; a second call restores the file; mirrorleftincircregion and mirrorrightincircregion copy the one half to the other.", "quantifier": "for every valid 8-bit or 24-bit image, and every disc inside it", "why_tests_cant": "all discs, column walks with a stride", "anchors": ["pythonbmp/BITMAPlib.py: fliphoricircregion, mirrorleftincircregion, mirrorrightincircregion, horitransformincircregion, itercirclepartvertlineedge"]}
{"id": "C74", "title": "Exchanging the axes inside a disc", "statement": "flipXYcircregion puts at (x+dx, y+dy) the old colour of (x+dy, y+dx) for every pixel of the disc, leaves all other pixels alone, and does nothing when the disc does not fit.", "quantifier": "for every valid image of any depth, and every disc inside it", "why_tests_cant": "all discs and depths", "anchors": ["pythonbmp/BITMAPlib.py: flipXYcircregion, vertBMPbitBLTget"]}
{"id": "C75", "title": "Outline inside a disc", "statement": "outlinecircregion replaces every pixel of the disc by the exclusive or of its colour and that of its right neighbour in the old image, and leaves every pixel outside alone.", "quantifier": "for every valid 8- or 24-bit image and every disc inside it", "why_tests_cant": "the whole image must be compared, for all discs", "anchors": ["pythonbmp/BITMAPlib.py: outlinecircregion, fn2circregion"]}
{"id": "C76", "title": "Brightness gradients inside a disc", "statement": "vertbrightnessgrad2circregion and horibrightnessgrad2circregion brighten every pixel of the disc with the factor of its row, respectively column, clipped to 255, and leave all other pixels alone; on other depths or when the disc does not fit nothing changes.", "quantifier": "for every valid image, every disc, and every family of factors", "why_tests_cant": "all factors and discs; the factor of a row must not depend on the column", "anchors": ["pythonbmp/BITMAPlib.py: vertbrightnessgrad2circregion, horibrightnessgrad2circregion, fnwithpar2vertslice"]}
{"id": "C77", "title": "Quarter mirrors inside a disc", "statement": "After mirrortopleftincircregion and its three siblings every pixel of the disc has the colour that its mirror image in the named quarter had before, and all pixels outside of the disc are unchanged.", "quantifier": "for every valid 8- or 24-bit image and every disc inside it", "why_tests_cant": "two passes over different pixel sets must compose, for all discs", "anchors": ["pythonbmp/BITMAPlib.py: mirrortopleftincircregion, mirrortoprightincircregion, mirrorbottomleftincircregion, mirrorbottomrightincircregion"]}
{"id": "C78", "title": "Erasing every nth line", "statement": "eraseeverynthhorizontalline(bmp, n) sets all pixels of the lines n, 2n, 3n, ... counted from 1 at the top to 0 and leaves all other lines alone; erasealternatehorizontallines does the same for the lines with a given rest and a given byte.", "quantifier": "for every valid image of any depth and every n", "why_tests_cant": "all sizes, depths, n and byte patterns; every pixel of the image must be compared", "anchors": ["pythonbmp/BITMAPlib.py: erasealternatehorizontallines, eraseeverynthhorizontalline"]}
{"id": "C79", "title": "Erasing every nth line of a rectangle", "statement": "eraseeverynthhorilineinregion erases every nth line of the rectangle, counted from 1 at its top, and changes no other pixel; a rectangle that leaves the image changes nothing.", "quantifier": "for every valid image, every rectangle and every n", "why_tests_cant": "all rectangles, in any order of the corners", "anchors": ["pythonbmp/BITMAPlib.py: erasealternatehorizontallinesinregion, eraseeverynthhorilineinregion"]}
{"id": "C80", "title": "Erasing every nth line of a disc", "statement": "eraseeverynthhorizontallineinccircregion erases the pixels of the disc in every nth line and changes no other pixel.", "quantifier": "for every valid image, every disc inside it and every n", "why_tests_cant": "all discs; both halves of the disc are written in one round of the loop", "anchors": ["pythonbmp/BITMAPlib.py: erasealternatehorizontallinesincircregion, eraseeverynthhorizontallineinccircregion"]}
{"id": "C81", "title": "Outline of a rectangle", "statement": "outlineregion replaces every pixel of the rectangle by the exclusive or of its colour and that of the pixel above, both in the old image, and changes no other pixel; outline does this for the whole image.", "quantifier": "for every valid image and every rectangle inside it", "why_tests_cant": "the loop writes to lines that it has already read; all rectangles must be tried", "anchors": ["pythonbmp/BITMAPlib.py: outlineregion, outline, _cmpimglines"]}
{"id": "C82", "title": "Mirrors that exchange single pixels", "statement": "fliphorzontalpixelbased and fliphverticalalpixelbased mirror the rectangle, change nothing outside, and undo themselves when called twice.", "quantifier": "for every valid image of any depth and every rectangle inside it", "why_tests_cant": "the middle line of odd rectangles and packed depths; all rectangles", "anchors": ["pythonbmp/BITMAPlib.py: fliphorzontalpixelbased, fliphverticalalpixelbased, swapcolors"]}
{"id": "C83", "title": "Luminosity threshold", "statement": "thresholdadjto24bitimage and thresholdadjto24bitregion bring the luminosity (largest channel) of every pixel into the given range: black pixels and pixels already in the range keep their colour, the others are scaled to the nearer limit; nothing outside the rectangle changes. thresholdadjcircregion does the same for a disc.", "quantifier": "for every 24-bit image, every rectangle or disc and all limits (any integers, in either order), whatever the rounding of the float quotient", "why_tests_cant": "all colours and limits; limits in reversed order and beyond a byte", "anchors": ["pythonbmp/BITMAPlib.py: thresholdadjto24bitregion, thresholdadjto24bitimage, thresholdadjcircregion", "pythonbmp/colors.py: applythresholdadjtoBGRbuf"]}
{"id": "C84", "title": "Gamma correction", "statement": "gammaadjto24bitregion, gammaadjto24bitimage and gammacorrectcircregion replace each pixel of the area by a colour that depends on that pixel only; greys stay grey; nothing outside changes.", "quantifier": "for every 24-bit image, every rectangle or disc, and every correction function", "why_tests_cant": "all images, areas and correction factors", "anchors": ["pythonbmp/BITMAPlib.py: gammaadjto24bitregion, gammaadjto24bitimage, gammacorrectcircregion", "pythonbmp/colors.py: applygammaBGRbuf, gammaBGRbuf"]}
{"id": "C85", "title": "Horizontal brightness gradient", "statement": "horizontalbrightnessgradto24bitregion brightens every pixel of the rectangle with the factor of its column and changes nothing else; the image version does this for the whole image.", "quantifier": "for every 24-bit image, every rectangle inside it and all factors", "why_tests_cant": "the loop writes strided slices; every row of every rectangle must be compared", "anchors": ["pythonbmp/BITMAPlib.py: horizontalbrightnessgradto24bitregion, horizontalbrightnessgradto24bitimage, verticalbrightnessgradto24bitimage"]}
{"id": "C86", "title": "File programs are careful", "statement": "Every modelled *2file function leaves all files alone when the source does not exist, raises an error without writing when the source is not a bitmap, and on success changes at most the file it was asked to write; the functions meant for true colour write nothing for other depths.", "quantifier": "for every set of files, every pair of names and every argument (also outside the image)", "why_tests_cant": "every combination of file contents, names and arguments, including non-bitmaps", "anchors": ["pythonbmp/BITMAPlib.py: all *2file functions, _usefn, _usefnwithpar and the 24-bit variants, checklink"]}
{"id": "C87", "title": "Whole-image file programs", "statement": "A whole-image *2file function writes exactly the image that the in-memory property describes (flip, mirror, complement, palette shift, outline, line erasing, gradient) and keeps the source; complementing or turning upside down twice over files restores the file byte for byte.", "quantifier": "for every stored image of each supported depth and any new name", "why_tests_cant": "all images; composition of load, change and save", "anchors": ["pythonbmp/BITMAPlib.py: invertbits2file, flipvertical2file, fliphorizontal2file, mirror*2file, outline2file, palshift2file, eraseeverynthhoriline2file, horizontalbrightnessgrad2file, verticalbrightnessgrad2file"]}
{"id": "C88", "title": "Rectangle file programs", "statement": "A *region2file function writes a copy in which the rectangle is changed as the in-memory property says and everything else is the same; a rectangle beyond the image gives an exact copy. The four corner mirrors repeat one quarter of the rectangle in the other three.", "quantifier": "for every stored image and every rectangle", "why_tests_cant": "all rectangles and images", "anchors": ["pythonbmp/BITMAPlib.py: *region2file, mirrortopleftinregion and its three siblings"]}
{"id": "C89", "title": "Disc file programs", "statement": "A *circregion2file function writes a copy in which the disc is changed as the in-memory property says and nothing outside the disc is changed.", "quantifier": "for every stored image and every disc", "why_tests_cant": "all discs and images", "anchors": ["pythonbmp/BITMAPlib.py: *circregion2file, circle2file, filledcircle2file, copycircregion2file"]}
{"id": "C90", "title": "Colour adjustment of files", "statement": "monochrome2file, colorfilter2file, adjustbrightness2file, gammaadj2file and thresholdadjust2file change every visible colour by one rule on colours: with a palette the entries are changed and the pixels kept, in true colour the pixels are changed; the rule is the same for both.", "quantifier": "for every stored image of each depth, whatever the float factors", "why_tests_cant": "visible colours through the palette and directly must be compared for every image", "anchors": ["pythonbmp/BITMAPlib.py: _useclradjfn, monochrome2file, colorfilter2file, adjustbrightness2file, gammaadj2file, thresholdadjust2file", "pythonbmp/colors.py: monochrome, colorfilter, brightnessadjust, thresholdadjust, gammacorrect"]}
{"id": "C91", "title": "Crop, enlarge, convert and compare files", "statement": "cropBMPandsave writes exactly the selected rectangle (and nothing for a rectangle beyond the image), cropBMPandsaveusingrectbnd writes the rectangle with the given corners, resizeNtimesbigger2file, upgradeto24bitimage2file and flipXY2file write the enlarged, converted or transposed image, imagediff2file and showsimilarparts2file write the differing or common bits of two images of equal geometry and nothing otherwise.", "quantifier": "for every stored image and all arguments", "why_tests_cant": "all images and rectangles; new image has another size", "anchors": ["pythonbmp/BITMAPlib.py: cropBMPandsave, cropBMPandsaveusingrectbnd, resizeNtimesbigger2file, upgradeto24bitimage2file, flipXY2file, _imgcompfn, imagediff2file, showsimilarparts2file"]}
{"id": "C92", "title": "Pens and point lists", "statement": "A pen of radius up to 1 paints exactly one pixel, a thicker pen exactly the disc of its radius; a list of points gets exactly the union of the marks.", "quantifier": "for every valid image, point list, pen and colour", "why_tests_cant": "overlapping and clipped marks in every combination", "anchors": ["pythonbmp/BITMAPlib.py: roundpen, plotxypointlist"]}
{"id": "C93", "title": "Polylines and polygons", "statement": "plotlines paints exactly the union of the lines between neighbouring vertices, plotpoly adds exactly the line between the first and the last vertex, plotpolylist is the union of its polygons; a polygon without vertices raises IndexError.", "quantifier": "for every valid image and vertex list of any length", "why_tests_cant": "vertex lists are unbounded and lines overlap", "anchors": ["pythonbmp/BITMAPlib.py: linevec, plotlines, plotpoly, plotpolylist"]}
{"id": "C94", "title": "Rectangle outlines", "statement": "rectangle paints exactly the four sides of the rectangle whose corners are moved into the image, and nothing else.", "quantifier": "for every valid image of every depth, all corners and colours", "why_tests_cant": "all corners, also outside the image or in any order, and all depths", "anchors": ["pythonbmp/BITMAPlib.py: rectangle", "pythonbmp/primitives2D.py: recvert"]}
{"id": "C95", "title": "Thick strokes", "statement": "A thick line, polyline, polygon or circle is exactly the union of the discs around the points of the thin one.", "quantifier": "for every valid image, all end points, radii and pens", "why_tests_cant": "unions of arbitrarily many overlapping clipped discs", "anchors": ["pythonbmp/BITMAPlib.py: thickroundline, thickcircle, thickplotpoly, plotlines"]}
{"id": "C96", "title": "Grids, rows of lines and filled boundaries", "statement": "xygrid paints exactly the lines at whole steps from the lower corner and strictly below the upper one, does nothing for a rectangle beyond the image or for negative steps and raises ValueError for a horizontal step of 0; vertlinevert and horilinevert paint one line per point; fillboundary fills each row between its extreme boundaries, in whatever order they are listed.", "quantifier": "for every valid image, rectangle, pair of steps, point list and boundary table", "why_tests_cant": "all steps and rectangles; boundary lists of any length and order", "anchors": ["pythonbmp/BITMAPlib.py: xygrid, xygridvec, vertlinevert, horilinevert, fillboundary"]}
{"id": "C97", "title": "Points of an ellipse", "statement": "iterellipsepart produces a connected path from the top of the ellipse to its axis that visits every row, and in each column of the flat part exactly the pixel nearest to the ellipse.", "quantifier": "for all half axes b >= 1 and a other than 0", "why_tests_cant": "all half axes; needs the invariant of the decision variable", "anchors": ["pythonbmp/primitives2D.py: iterellipsepart, iterellipse, ellipsevert"]}
{"id": "C98", "title": "Drawing ellipses", "statement": "ellipse paints exactly the points of the ellipse inside the image, filledellipse exactly the pixels horizontally between them.", "quantifier": "for every valid image, centre, pair of half axes and colour", "why_tests_cant": "clipping at every edge and every shape", "anchors": ["pythonbmp/BITMAPlib.py: ellipse, filledellipse", "pythonbmp/primitives2D.py: entireellipseisinboundary"]}
{"id": "C99", "title": "Parallelograms", "statement": "A translated line has the translated points, so the segments of a parallelogram all have the same difference; filledparallelogram paints exactly the union of these segments.", "quantifier": "for all integer corners", "why_tests_cant": "all slopes, all corners", "anchors": ["pythonbmp/BITMAPlib.py: filledparallelogram", "pythonbmp/primitives2D.py: iterparallelogram, lineseg"]}
{"id": "C100", "title": "Vertex lists", "statement": "horizontalvert and verticalvert list exactly the points at whole steps before the far end; rectboundarycoords is the smallest rectangle around the points; a spiral has four vertices per turn, and without growth its arms turn right, down, left, up and arm k is k+1 steps long.", "quantifier": "for all arguments, point lists of any length and any number of turns", "why_tests_cant": "lists of any length", "anchors": ["pythonbmp/primitives2D.py: horizontalvert, verticalvert, rectboundarycoords, spiralcontrolpointsvert"]}
{"id": "C101", "title": "Splitting interleaved buffers", "statement": "altsplitbufnway splits a buffer of q groups of n bytes into n buffers, the i-th holding byte i of every group; altsplitbuf and altsplitbuf3way do this for 2 and 3.", "quantifier": "for every buffer and every n >= 1", "why_tests_cant": "buffers of any length and every n", "anchors": ["pythonbmp/buffersplit.py: altsplitbuf, altsplitbuf3way, altsplitbufnway"]}
{"id": "C102", "title": "Making images smaller", "statement": "resizeNtimessmaller gives an image of W/n by H/n pixels in which every channel of a pixel is an integer nearest to the mean of that channel over an n by n square; pixelizenxn gives every square the mean colour of the square.", "quantifier": "for every valid 24-bit image and n from 1 to 2^20", "why_tests_cant": "all sizes, remainders and contents; floats rounded for every n", "anchors": ["pythonbmp/BITMAPlib.py: resizeNtimessmaller, pixelizenxn", "pythonbmp/bufresize.py: resizesmaller24bitbuf", "pythonbmp/mathlib.py: addvectinlist, intscalarmulvect"]}
{"id": "C103", "title": "Float quotients of integers", "statement": "int(a / d) computed with 53-bit floats is the exact integer quotient, the rounded mean of three bytes is the nearest integer, and round(s * (1 / n**2)) is an integer nearest to s / n**2.", "quantifier": "for all a + d up to 2^52, all sums of three bytes, all n below 2^20", "why_tests_cant": "about 2^104 pairs of operands", "anchors": ["pythonbmp/colors.py: applymonochromefiltertoBGRbuf, monochrome", "pythonbmp/mathlib.py: mean, intscalarmulvect"]}
{"id": "C104", "title": "Brightness in percent", "statement": "Changing the brightness by p percent makes each channel v an integer nearest to v*(100+p)/100, limited to a byte, in palettes and in 24-bit pixels; 0 percent changes nothing and -100 percent gives black.", "quantifier": "for every valid image of every depth and every whole p from -10^6 to 10^6", "why_tests_cant": "all images and percentages with three or five float roundings each", "anchors": ["pythonbmp/colors.py: brightnessadjust, applybrightnessadjtoBGRbuf, RGBfactors2RGB", "pythonbmp/BITMAPlib.py: adjustbrightness2file, brightnesseadjto24bitregion"]}
{"id": "C105", "title": "Luminosity limits with float factors", "statement": "The threshold adjustment brings the luminosity of every colour that is not black into the range and leaves colours in the range as they are.", "quantifier": "for every valid image and all limits", "why_tests_cant": "all colours and limits; the float product may be one unit below an integer", "anchors": ["pythonbmp/colors.py: thresholdadjust, applythresholdadjtoBGRbuf", "pythonbmp/BITMAPlib.py: thresholdadjust2file, thresholdadjto24bitimage"]}
{"id": "C106", "title": "Hilbert curves visit every cell once", "statement": "hilbertvert of order n returns the rounded middles of the 2^n by 2^n cells of the parallelogram in the order of a walk that visits every cell once, steps only between neighbouring cells and ends beside the start edge.", "quantifier": "for every corner, edges and order n with coordinates times 2^(n+2) up to 2^53", "why_tests_cant": "4^n points; every order and every position, with float arithmetic", "anchors": ["pythonbmp/fractals.py: hilbertvert"]}
{"id": "C107", "title": "Koch curves", "statement": "kochcurvevert fills a list of 4^n+1 points with the curve in which every side has been replaced n times by four pieces; it begins and ends at the given points; with exact numbers each round makes it longer by exactly a third; the snowflake is three such curves and closes.", "quantifier": "for all end points and every n", "why_tests_cant": "4^n points written out of order into a list; every n", "anchors": ["pythonbmp/fractals.py: koch, kochcurvevert, kochsnowflakevert"]}
{"id": "C108", "title": "Plotting of point functions", "statement": "A fractal plot gives each pixel of the half-open rectangle the shade of the value at its own point of the domain, and no other pixel changes; the points begin at the lower bound of the domain and increase.", "quantifier": "for every valid image of every depth, every rectangle inside it, every function with values of a byte, all domains and all colour factors from 0 to 1", "why_tests_cant": "all functions, domains and images", "anchors": ["pythonbmp/fractals.py: mapfractaldomain, itermultifractal", "pythonbmp/BITMAPlib.py: plotmultifractal", "pythonbmp/colors.py: colormix"]}
{"id": "C109", "title": "Escape times and Newton's method", "statement": "The escape loops return the number of the first step beyond the bound, or maxiter if there is none; points reported outside the multibrot set have unbounded orbits; the sets have their known symmetries; biomorphfunc and newtonmethod stop at the first step that meets their test.", "quantifier": "for every iteration, start value and maxiter; exact complex numbers for the statements about the sets", "why_tests_cant": "infinite orbits and all complex parameters", "anchors": ["pythonbmp/fractals.py: multibrot, multicorn, multijulia, biomorphfunc, spiraljulia, lambdafn, barnsleytree", "pythonbmp/mathlib.py: newtonmethod"]}
{"id": "C110", "title": "Vector algebra", "statement": "Addition and subtraction undo each other, the inner product is symmetric and linear, the cross product is orthogonal to both factors and obeys Lagrange's identity, det3D is the determinant, isorthogonal holds exactly for inner product zero, rotations keep inner products and add up, cosaffin is between -1 and 1, normvec has length 1, dist is a metric, pivotlist transposes.", "quantifier": "for all vectors of all lengths over every field (metric statements over the reals)", "why_tests_cant": "all vectors and dimensions", "anchors": ["pythonbmp/mathlib.py: addvect, subvect, scalarmulvect, dotprod, crossprod3d, getnormvec, isorthogonal, det3D, rotvec2D, computerotvec, mirrorvec, centerpoint, pivotlist, vmag, dist, normvec, cosaffin"]}
{"id": "C111", "title": "Statistics", "statement": "LSMslope and LSMYint give the line with the least sum of squared distances; PearsonsR is between -1 and 1 as documented, is 1 or -1 for points on a line and only for them; deviations from the mean add up to 0; StdDev is 0 only for constant lists.", "quantifier": "for all finite lists of real points", "why_tests_cant": "minimality over all lines; all data sets", "anchors": ["pythonbmp/mathlib.py: LSMslope, LSMYint, PearsonsR, variance, StdDev, mean"]}
{"id": "C112", "title": "Fourier transform", "statement": "For lists whose length is a power of 2 fft is the discrete Fourier transform and ifft the inverse one.", "quantifier": "for all lists of complex numbers of length 2^p, every p", "why_tests_cant": "all lists of all lengths; the definition is a sum of n^2 terms", "anchors": ["pythonbmp/mathlib.py: applyfft, fft, ifft"]}
{"id": "C113", "title": "Interpolation curves", "statement": "lerp and invlerp are inverse to each other; the smoothstep functions map the range onto 0 to 1 as documented, rise, are symmetric and have slope 0 at both ends; invsmoothstep undoes smoothstep.", "quantifier": "for all real arguments", "why_tests_cant": "all reals; monotony and derivatives", "anchors": ["pythonbmp/mathlib.py: lerp, invlerp, smoothstep, smootherstep, smootheststep, smoothsteplerp, smoothersteplerp, smootheststeplerp, invsmoothstep"]}
{"id": "C114", "title": "Coordinate systems", "statement": "Converting rectangular to polar, spherical or cylindrical coordinates and back gives the point; polarcoordangle2D gives the angle from the upward direction in [0, 2 pi).", "quantifier": "for all points of the plane and of space", "why_tests_cant": "all points, including every quadrant", "anchors": ["pythonbmp/mathlib.py: rect2polarcoord2D, polar2rectcoord2D, rect2sphericalcoord3D, spherical2rectcoord3D, rect2cylindricalcoord3D, cylindrical2rectcoord3D, polarcoordangle2D, anglebetween2Dlines"]}
{"id": "C115", "title": "Platonic solids", "statement": "The faces of each solid form a closed surface: every edge is in exactly two faces, once in each direction. All faces of a solid turn the same side outward, all other corners being on the inner side of each face, and the edges have the documented length.", "quantifier": "for all side lengths greater than 0", "why_tests_cant": "all real sizes; orientation of every face against every corner", "anchors": ["pythonbmp/solids3D.py: tetrahedravert, tetrahedra, cubevert, cube, hexahedravert, hexahedra, octahedravert, octahedra, decahedvertandsurface, icosahedvertandsurface"]}
{"id": "C116", "title": "Perspective view", "statement": "perspective turns and moves a solid without changing its distances or handedness, projects it from the given distance, and surfacetest keeps exactly the faces whose outer side is seen from the eye.", "quantifier": "for all angles, positions, distances, points and faces", "why_tests_cant": "all rotations and faces", "anchors": ["pythonbmp/solids3D.py: perspective, surfacetest, gensides", "pythonbmp/mathlib.py: computerotvec, rotvec2D"]}
{"id": "C117", "title": "Spheres, cylinders and cones", "statement": "The tiles of a sphere, cylinder or cone form a closed surface between the listed points, the points lie on the body around the given centre, and all tiles turn the same side outward.", "quantifier": "for all centres, sizes and steps that divide 360", "why_tests_cant": "every tessellation", "anchors": ["pythonbmp/solids3D.py: spherevert, genspheresurfaces, sphere, cylindervertandsurface, conevertandsurface"]}
{"id": "C118", "title": "Surface plots", "statement": "surfplot3D lists the points of the grid with the value of the function and exactly the cells of the grid as faces, each once.", "quantifier": "for all functions, ranges and steps", "why_tests_cant": "all functions and grid sizes", "anchors": ["pythonbmp/solids3D.py: surfplot3D"]}
{"id": "C119", "title": "Filled polygons", "statement": "polyboundary lists the pixels of all edges of a polygon, each once; plotpolyfill paints exactly the pixels inside and on the boundary.", "quantifier": "for all images and all lists of vertices", "why_tests_cant": "all polygons, positions and colour depths", "anchors": ["pythonbmp/solids3D.py: polyboundary, fillpolydata", "pythonbmp/BITMAPlib.py: plotpolyfill, fillboundary"]}
{"id": "C120", "title": "Bezier curves and B-splines", "statement": "A Bezier curve is the curve of its control points given by repeated interpolation; a B-spline is continuous, its weights are not negative and add up to 1, closed ones return to their start; both stay in every rectangle that contains the control points, and all control points matter. Drawing leaves exactly the marks of the pen along the curve.", "quantifier": "for all lists of control points and all parameters", "why_tests_cant": "all control points and the continuous parameter", "anchors": ["pythonbmp/primitives2D.py: _bezierblend, iterbeziercurve, _bsplineblend, iterbspline", "pythonbmp/BITMAPlib.py: beziercurve, bspline"]}
{"id": "C121", "title": "Regular polygons", "statement": "floatregpolygonvert gives as many corners as requested, all at distance r from the centre and with sides of equal length.", "quantifier": "for all centres, radii, rotations and numbers of sides", "why_tests_cant": "all numbers of sides and rotation angles", "anchors": ["pythonbmp/primitives2D.py: floatregpolygonvert, regpolygonvert"]}
{"id": "C122", "title": "Arcs and pie charts", "statement": "The data of a pie chart gives each entry the share of 360 degrees and of 100 percent that its value has in the total, without gaps; the arcs together contain the whole circle; drawarc draws the points of the circle within the arc with the lines to the centre and fills the sector; each entry of the chart is visible in its colour.", "quantifier": "for all lists of values, all circles and images", "why_tests_cant": "all data sets and angles", "anchors": ["pythonbmp/charts.py: genpiechartdata, getdatalisttotal", "pythonbmp/primitives2D.py: arcvert", "pythonbmp/BITMAPlib.py: drawarc, piechart"]}
{"id": "C123", "title": "Two-dimensional histograms", "statement": "histogram2D counts every point in exactly one bin; bins have equal size and cover the range of the data.", "quantifier": "for all lists of points and numbers of bins up to 2^50, in float arithmetic", "why_tests_cant": "float rounding at the bounds of all bins", "anchors": ["pythonbmp/mathlib.py: histogram2D, getdomainbounds, initmatrix"]}
{"id": "C124", "title": "Edge detection", "statement": "getimagedgevert finds only pixels of the image that touch a pixel whose colour differs by more than the threshold, and finds a pixel near every pair of pixels beside each other that differ this much; with the threshold 0 it finds nothing exactly if the image has a single colour. plotimgedges marks exactly the pixels found.", "quantifier": "for all images and thresholds", "why_tests_cant": "all images and pairs of neighbours", "anchors": ["pythonbmp/BITMAPlib.py: iterimagedgevert, getimagedgevert, plotimgedges, getRGBxybitvec", "pythonbmp/primitives2D.py: itergetneighbors", "pythonbmp/mathlib.py: dist"]}
{"id": "C125", "title": "Automatic cropping", "statement": "autocropimg2file saves the part of the image around everything that is not background.", "quantifier": "for all images, backgrounds and thresholds", "why_tests_cant": "all shapes and positions of the content", "anchors": ["pythonbmp/BITMAPlib.py: autocropimg2file, cropBMPandsaveusingrectbnd, getimagedgevert", "pythonbmp/primitives2D.py: rectboundarycoords, itergetneighbors"]}
{"id": "C126", "title": "Regions of similar colour", "statement": "getimageregionbyRGB lists exactly the pixels whose colour is nearer to the given one than the threshold, each once; imgregionbyRGB2file saves the image, or an image with the same palette and all pixels of colour number 0, with these pixels marked.", "quantifier": "for all images, colours and thresholds", "why_tests_cant": "all images and colours", "anchors": ["pythonbmp/BITMAPlib.py: iterimageregionvertbyRGB, getimageregionbyRGB, imgregionbyRGB2file, copyBMPhdr", "pythonbmp/mathlib.py: dist"]}
{"id": "C127", "title": "Palettes of shades", "statement": "monochromepal gives 2^bits shades of the given colour in order of brightness from 0 to full; monoshiftablepal and monoinverseshiftablepal give the same or the opposite shades rotated by the shift; setBMP2monochrome, setBMP2invshiftedmonochrome and newBMPwithPAL put such a palette into an image and leave its pixels alone.", "quantifier": "for all factors between 0 and 1, shifts and images", "why_tests_cant": "all rational factors, shifts and images", "anchors": ["pythonbmp/colors.py: monochromepal, monoshiftablepal, monoinverseshiftablepal, monoinverseshiftableBGRApal, RGB2BGRAlist", "pythonbmp/BITMAPlib.py: setBMP2monochrome, setBMP2invshiftedmonochrome, newBMPwithPAL"]}
{"id": "C128", "title": "Palettes between two colours", "statement": "dichromaticpal holds each of the 2^bits steps between two colours exactly once, at the places given by the step and the shift, and every channel lies between those of the two colours; setBMP2dichromaticpal and newBMPwithPAL put it into an image.", "quantifier": "for all pairs of colours, all odd steps and all shifts", "why_tests_cant": "all 2^48 pairs of colours", "anchors": ["pythonbmp/colors.py: dichromaticpal, interpolateRGB", "pythonbmp/BITMAPlib.py: setBMP2dichromaticpal, newBMPwithPAL"]}
{"id": "C129", "title": "Fewer colours", "statement": "makenewpalfromcolorhist lists black and then the most frequent colours, no two closer than the threshold, and unless the list is full every colour of the image is in it or close to an entry; reduce24bitimagebits saves an image of the same size in which every pixel is the nearest colour of the palette.", "quantifier": "for all true colour images, thresholds and numbers drawn", "why_tests_cant": "all images and palettes", "anchors": ["pythonbmp/BITMAPlib.py: makenewpalfromcolorhist, setnewpalfromsourcebmp, reduce24bitimagebits, CopyBMPxydim2newBMP", "pythonbmp/colors.py: matchRGBtopal, probplotRGBto1bit"]}
{"id": "C130", "title": "Hue, saturation and luminosity", "statement": "The hue, saturation and luminosity computed by RGB2HSL are those of the colour: the usual formula gives the colour back; they are in their ranges, and the saturation is 0 exactly for greys.", "quantifier": "for all byte triples", "why_tests_cant": "all colours with exact numbers", "anchors": ["pythonbmp/colors.py: RGB2HSL"]}
{"id": "C131", "title": "Rectangles with a gradient", "statement": "filledgradrect and filleddichromaticgradrect change only the rectangle and fill it with a gradient from the first colour at its left (or first row) to the second; fillbackgroundwithgrad and fillbackgroundwithdichromaticgrad do this for the whole image; rectangles not inside the image and other depths are left alone.", "quantifier": "for all images, rectangles, brightnesses and colours", "why_tests_cant": "all rectangles in all images", "anchors": ["pythonbmp/BITMAPlib.py: filledgradrect, fillbackgroundwithgrad, filleddichromaticgradrect, fillbackgroundwithdichromaticgrad, filledgradrect2file, filleddichromaticgradrect2file", "pythonbmp/colors.py: interpolateRGB"]}
{"id": "C132", "title": "Pens with a gradient", "statement": "Lines, circles, polygons, paths and points drawn with a gradient pen are layers of strokes: a pixel in none of them is unchanged, and any other has the colour of the thinnest stroke it lies in, which is the given step between the two brightnesses.", "quantifier": "for all images, points, pens, brightnesses and factors", "why_tests_cant": "all strokes and pens", "anchors": ["pythonbmp/BITMAPlib.py: gradthickroundline, gradthickcircle, gradthickplotpoly, gradplotlines, gradvert", "pythonbmp/colors.py: colormix"]}
{"id": "C133", "title": "Discs, orbs, spheres and ellipses with a gradient", "statement": "gradcircle, graddichromiccircle, sphere, orb and gradellipse paint layers around the centre whose colour goes from the first at the centre to the second at the edge, and paint nothing outside the figure.", "quantifier": "for all images, centres, radii and colours", "why_tests_cant": "all radii and images", "anchors": ["pythonbmp/BITMAPlib.py: gradcircle, graddichromiccircle, orb, sphere, sphere2file, gradellipse"]}
{"id": "C134", "title": "Glyphs made of dots", "statement": "Each of the sixteen glyph functions (upright, upside down, mirrored, sideways and their italic forms, with squares or with round dots) paints the mark of every set bit of the glyph at the place of that form and nothing else; a round dot lies in the square painted in its place and is at most one pixel narrower.", "quantifier": "for all images, glyphs, places, scales, spacings and colours", "why_tests_cant": "all glyphs, scales and places", "anchors": ["pythonbmp/BITMAPlib.py: plotcircinsqr, plot8bitpatternasdots, plotitalic8bitpatternasdots, plotreverseditalic8bitpatternasdots, plotupsidedownitalic8bitpatternasdots, plotrotated8bitpatternasdots, plot8bitpatternupsidedownasdots, plot8bitpatternsidewaywithdots, plotitalic8bitpatternsidewayasdots"]}
{"id": "C135", "title": "Texts in every direction", "statement": "Each of the twenty text functions paints exactly the dots of the glyphs of the visible characters, each in its column and line, in the direction, order and form of the function.", "quantifier": "for all images, texts, fonts, places, scales, spacings and colours", "why_tests_cant": "all texts, fonts and places", "anchors": ["pythonbmp/BITMAPlib.py: plotstringasdots, plotitalicstringasdots, plotreverseditalicstring, plotreverseditalicstringasdots, plotupsidedownitalicstring, plotupsidedownitalicstringasdots, plotstringupsidedownasdots, plotreversestring, plotreversestringasdots, plotitalicstringsideway, plotitalicstringsidewayasdots, plotstringsidewayasdots, plotstringverticalasdots, plotitalicstringvertical, plotitalicstringverticalasdots"]}
{"id": "C136", "title": "Files made from texts", "statement": "Each of the thirteen functions that write a text to a file makes an image of the size of the text that shows every dot of every visible character over the background, none cut off, and changes no other file.", "quantifier": "for all texts, fonts, scales of at least 1 and non-negative spacings", "why_tests_cant": "all texts and fonts", "anchors": ["pythonbmp/BITMAPlib.py: plotstringfunc2file, plotstringverticalwithfn2file, plotstring2file, plotverticalstring2file, plotitalicstring2file, plotverticalitalicstring2file, plotreverseditalicstring2file, plotverticalstringasdots2file, plotverticalitalicstringasdots2file, plotstringasdots2file, plotitalicstringasdots2file, plotreversedstring2file, plotreversedstringasdots2file, plotupsidedownstring2file, plotupsidedownstringasdots2file"]}
{"id": "C137", "title": "Mirrored and upside down texts", "statement": "plotreversestring shows the mirror image of what plotstring shows; plotstringupsidedown and plotstringupsidedownasdots show it with top and bottom exchanged.", "quantifier": "for all texts on a plain ground", "why_tests_cant": "all texts and fonts", "anchors": ["pythonbmp/BITMAPlib.py: plotreversestring, plotstringupsidedown, plotstringupsidedownasdots"]}
{"id": "C138", "title": "Lenses", "statement": "magnifyNtimescircregion shows inside the disc the image n times bigger around the centre, pixelizenxncircregion the average colour of n by n squares; nothing outside the disc changes; other depths and discs that leave the image are rejected without a change.", "quantifier": "for all 24-bit images, discs inside the image and factors", "why_tests_cant": "all images, discs and factors", "anchors": ["pythonbmp/BITMAPlib.py: magnifyNtimescircregion, pixelizenxncircregion, pixelizenxn"]}
{"id": "C139", "title": "More file programs", "statement": "magnifyNtimescircregion2file, pixelizenxncircregion2file, thickencirclearea2file, pixelizenxntofile, resizeNtimessmaller2file and rectangle2file write the result of their image function to the new file, change no other file, and leave everything alone if the source is missing.", "quantifier": "for all files, images and parameters", "why_tests_cant": "all file contents and parameters", "anchors": ["pythonbmp/BITMAPlib.py: magnifyNtimescircregion2file, pixelizenxncircregion2file, thickencirclearea, thickencirclearea2file, pixelizenxntofile, resizeNtimessmaller2file, rectangle2file"]}
{"id": "C140", "title": "Directories of images", "statement": "colorcycle2dir writes one file for each colour of the palette; file i has the same pixels and the palette turned by i places; an existing directory is not touched without permission; no other file changes.", "quantifier": "for all 4- and 8-bit images, directories and names", "why_tests_cant": "all images and names", "anchors": ["pythonbmp/BITMAPlib.py: colorcycle2dir, _usefndirsv, itercolorcycle"]}
{"id": "C141", "title": "Arrows", "statement": "drawvec draws the shaft from the first to the second point and two barbs that start at the tip, go back at 22.5 degrees on either side of the shaft and have the wanted length, each end rounded to the nearest pixel; nothing else changes.", "quantifier": "for all points, sizes, images and colours", "why_tests_cant": "all directions and lengths", "anchors": ["pythonbmp/primitives2D.py: iterdrawvec", "pythonbmp/BITMAPlib.py: drawvec"]}
{"id": "C142", "title": "Plot coordinates", "statement": "userdef2Dcooordsys2screenxy sends the value that belongs to a mark of an axis exactly to the pixel of the mark, keeps the order of values, and never gives a point beyond the limits at the right or the top.", "quantifier": "for all origins, steps and values within the integers of a float", "why_tests_cant": "all scales and values", "anchors": ["pythonbmp/BITMAPlib.py: userdef2Dcooordsys2screenxy"]}
{"id": "C143", "title": "Axes", "statement": "XYaxis draws, one over the other, the grid, an arrow for each axis, a mark every step and the number start + k * step at mark k (right-justified on the vertical axis), changes nothing else, and returns the scale with the last numbers.", "quantifier": "for all origins, limits, steps, starts, fonts and images with the arrows inside", "why_tests_cant": "all layouts and numbers", "anchors": ["pythonbmp/BITMAPlib.py: XYaxis, numbervert, vertlinevert, horilinevert, xygridvec"]}
{"id": "C144", "title": "Scatter plots", "statement": "XYscatterplot draws one mark for each datum at its position: a pixel, a circle or a disc of the wanted size up to 5; the regression line is the line of least squares between the ends of the horizontal axis.", "quantifier": "for all data, scales, images and colours", "why_tests_cant": "all data sets", "anchors": ["pythonbmp/BITMAPlib.py: XYscatterplot, circlevec, plotvecxypoint", "pythonbmp/mathlib.py: LSMslope, LSMYint"]}
{"id": "C145", "title": "Shaded solids", "statement": "plotpolyfillist fills the polygon of each face with the colour factors times the brightness of the face, which is 127 plus 128 times the cosine between its normal vector and the third axis; plot3d draws the outlines over it.", "quantifier": "for all faces, normal vectors, colour factors and images", "why_tests_cant": "all solids and directions", "anchors": ["pythonbmp/BITMAPlib.py: plotpolyfillist, plot3d, plot3Dsolid", "pythonbmp/mathlib.py: cosaffin"]}
{"id": "C146", "title": "Rotated ellipses", "statement": "iterellipserot yields the points of iterellipse turned around the centre by the angle and rounded, so that distances from the centre change by at most the rounding; quarter turns are exact; the thick version is the union of discs around these points, also with a gradient.", "quantifier": "for all centres, radii, angles, pens and images", "why_tests_cant": "all real angles", "anchors": ["pythonbmp/primitives2D.py: iterellipserot", "pythonbmp/BITMAPlib.py: thickellipserot, gradthickellipserot"]}
{"id": "C147", "title": "Rolling circles", "statement": "iterepicycloid, iterhypotrochoid and iterspirograph sample, rounded to the nearest pixels, the path of a point fixed to a circle that rolls without slipping on the outside or the inside of another circle; itercircleinvolute samples the path of the end of an unwound thread.", "quantifier": "for all radii, pens, steps and limits", "why_tests_cant": "all real parameters; rolling is a statement about derivatives", "anchors": ["pythonbmp/primitives2D.py: iterspirograph, itercircleinvolute, iterepicycloid, iterhypotrochoid"]}
{"id": "C148", "title": "Curves of a formula", "statement": "A Lissajous curve stays in the rectangle of its amplitudes; a flower has 360 points for each petal, tips at equal angles at the distance r, and the centre between the petals; a gear stays between two radii and repeats with each tooth; a Cornu spiral has equal steps whose direction is the square of the length; a heart is symmetric.", "quantifier": "for all centres, sizes, petals and angles", "why_tests_cant": "all real parameters", "anchors": ["pythonbmp/primitives2D.py: iterlissajouscurve, iterflower, itergearcurve, itercornuspiral, iterheartcurve"]}
{"id": "C149", "title": "Superellipses and eggs", "statement": "Every point of itersuperellipse is the last pixel inside of |x/a|^m + |y/b|^n = 1, in the quadrant of its angle; for a squircle x^4 + y^4 <= r^4 in integers; squircle draws the lines between them; an egg is symmetric to its axis and has the length a.", "quantifier": "for all centres, positive radii and exponents", "why_tests_cant": "all real exponents", "anchors": ["pythonbmp/primitives2D.py: itersuperellipse, itersquircle, itereggcurve", "pythonbmp/BITMAPlib.py: squircle"]}
{"id": "C150", "title": "Drawn flowers", "statement": "plotflower gives every pixel of the flower the colour factors times a brightness that goes with the distance from the centre and changes nothing else; plotfilledflower does this for the radii r, r - 1, ..., 3, the smallest on top.", "quantifier": "for all centres, radii, petals, angles, brightnesses, colour factors and images", "why_tests_cant": "all parameters and image sizes", "anchors": ["pythonbmp/BITMAPlib.py: plotflower, plotfilledflower"]}
{"id": "C151", "title": "Values of fractal points", "statement": "sinjulia, cosjulia, tetrationfn and marekdragon count the steps until a sum leaves its limit, the other functions those until a point leaves the disc with the radius 2; points counted as outside go away without bound; the values have the symmetries of their formulas (centres, mirror images, rotations of order n); astroid, lemniscate, multicircle, multihyperbola and xorfn are the distances from their curves, rounded, as whole numbers.", "quantifier": "for all points, parameters and iteration limits", "why_tests_cant": "all complex numbers; unbounded orbits", "anchors": ["pythonbmp/fractals.py: sinjulia, cosjulia, tetrationfn, marekdragon, spiraljulia, lambdafn, barnsleytree, ngonfunc, multicircle, multihyperbola, multisuperellipse, astroid, lemniscate, xorfn, xordivfn, biomorphfunc and the biomorphs"]}
{"id": "C152", "title": "Files with fractals", "statement": "savefractal2file and all functions that call it write one valid image of the given size and depth; every pixel has the colour number of the value of its point of the domain, and the palette has the shade for each value, so that pictures with 256 and 2^24 colours look the same; with two colours the palette lies between them. Other files stay as they are, and with wrong arguments no file is written.", "quantifier": "for all sizes, depths, functions, domains, colour factors and files", "why_tests_cant": "all functions and sizes", "anchors": ["pythonbmp/BITMAPlib.py: savefractal2file, savemultifractal2file, savefractalwithparam2file, savefractalwith2param2file, newBMPwithPAL, plotmultifractal"]}
{"id": "C153", "title": "Iterated function systems", "statement": "iterIFS yields the pixels of the orbit of its maps, chosen by the random numbers and the thresholds, that lie strictly inside the rectangle; IFS and fern paint exactly these; the orbit of the Sierpinski triangle stays in the triangle and out of its middle.", "quantifier": "for all random numbers, maps, rectangles, scales, offsets, colours and images", "why_tests_cant": "all sequences of random numbers", "anchors": ["pythonbmp/fractals.py: getIFSparams, iterIFS", "pythonbmp/BITMAPlib.py: IFS, fern, fern2file"]}
{"id": "C154", "title": "Pictures of Newton's method", "statement": "newtonsfractal returns roots that are at least 1/100 apart; every point that converges is near one of them and its pixel gets the colour of this root and of the number of steps; other pixels stay as they are. savenewtonsfractal2file writes this picture to a file.", "quantifier": "for all functions, domains, rectangles, colour factors and images", "why_tests_cant": "all functions and images", "anchors": ["pythonbmp/BITMAPlib.py: newtonsfractal, savenewtonsfractal2file", "pythonbmp/fractals.py: newton, iternewtonsfractal"]}
{"id": "C155", "title": "Points of attractors", "statement": "Each list of an attractor has n points; the first comes from the start and every other one from the point before it by the formula of the attractor (Ikeda, Gumowski-Mira, de Jong, Clifford, fractal dream, Martin, Duffing, symmetric icons); longer lists begin with shorter ones; the points of the trigonometric maps and of a contracting Ikeda map stay within bounds given by the parameters; symmetric icons have the symmetry of a regular polygon.", "quantifier": "for all real parameters, starts and numbers of points", "why_tests_cant": "all real parameters; unbounded lists", "anchors": ["pythonbmp/fractals.py: ikedaattractorlist, nattractorlist, gumowskimiraattractorlist, peterdejongattractorlist, cliffordattractorlist, fractaldreamattractorlist, hopalongattractorlist, symmetriciconattractorlist, duffingattractorlist"]}
{"id": "C156", "title": "Pictures of attractors", "statement": "The picture of a list of points is a valid image in which every pixel shows how often its bin of the bounding rectangle is hit: the least hit bins have colour 0, the most hit ones the last colour, the others the scaled number of hits, and more hits never give a smaller number. The file variants write this picture and change no other file.", "quantifier": "for all lists of points, sizes and depths", "why_tests_cant": "all lists and sizes; float rounding", "anchors": ["pythonbmp/BITMAPlib.py: plotattractor, plotattractorcomplex, ikedaattractor .. fractaldreamattractor, saveikedaattractor2file .. savefractaldreamattractor2file", "pythonbmp/mathlib.py: histogram2Dcomplex, getcomplexdomainbounds, ravel2D"]}
{"id": "C157", "title": "Images and patterns as text", "statement": "The text of an image has one line for each row, from the top, with one character for each pixel of one-bit images and fixed numbers of characters for the bytes of other images; the text of a byte or pattern shows its bits from the highest to the lowest.", "quantifier": "for all valid images and all lists of bytes", "why_tests_cant": "all sizes and contents", "anchors": ["pythonbmp/BITMAPlib.py: plotbmpastext", "pythonbmp/textgraphics.py: plotbitsastext, plot8bitpatternastext"]}
{"id": "C158", "title": "Lists of numbers", "statement": "Clamping gives the nearest number within the bounds, rounding an integer at distance at most one half, masks and unions work on each bit, dividing undoes multiplying, mirrored points have the given point in their middle, sums do not depend on the order, random shifts stay within their limits.", "quantifier": "for all lists", "why_tests_cant": "all lists of all lengths", "anchors": ["pythonbmp/mathlib.py: setmaxvec, setminmaxvec, intsetminmaxvec, roundvect, roundvectlist, bitmaskvect, orvect, swapxy, adddimz, divvect, meanlist, mirrorx, mirrory, addrndtovert, addvectpairlist, addvecttripletlist, addvectlist"]}
{"id": "C159", "title": "Directions and statistics", "statement": "Direction cosines have length one and give the vector back, and so do their angles; R squared is the part of the spread removed by the line of least squares; the statistic t satisfies t\u00b2(1 - r\u00b2) = r\u00b2(N - 2) with the sign of r; the coefficient of variation does not depend on the unit; towers of powers grow with their height and stay at most e for bases up to e^(1/e).", "quantifier": "for all vectors, lists of points and bases, in exact real arithmetic", "why_tests_cant": "all real inputs", "anchors": ["pythonbmp/mathlib.py: dircos, diracos, dirdeg, Rsquare, TTest, coefvar, tetration"]}
{"id": "C160", "title": "Tables of distances and levels", "statement": "The table of distances has every ordered pair of different positions once with its distance; the counts are the numbers of entries for each distance; the levels are the different third coordinates with the positions of their points; packing and unpacking half bytes undo each other.", "quantifier": "for all lists", "why_tests_cant": "all lists of all lengths", "anchors": ["pythonbmp/mathlib.py: distancetable, countdist", "pythonbmp/solids3D.py: zlevelcoords", "pythonbmp/bufresize.py: unpack4bitbuf, pack4bitbuf"]}
{"id": "C161", "title": "Colour corrections", "statement": "Gamma correction keeps bytes, their order and white, and is the identity for gamma one; the random four-bit colour has the bits of the draws above the middle and the bright bit of a channel in the upper half; base and range of the channels give the shares of both luminosities; a dictionary of colours is mapped to the nearest colours of the palette.", "quantifier": "for all bytes, factors, draws, palettes and dictionaries", "why_tests_cant": "all palettes and dictionaries", "anchors": ["pythonbmp/colors.py: gammacorrectbyte, probplotRGBto4bitpal, RGBfactorstoBaseandRange, getdefaultlumrange", "pythonbmp/BITMAPlib.py: adjustcolordicttopal"]}
{"id": "C162", "title": "Files with Hilbert curves", "statement": "The saved file is a valid image of the given size with the background colour everywhere except on the Hilbert curve: a walk through all cells of a board with 2^n rows and columns, whose neighbours in the walk are neighbours on the board, drawn by straight lines between the centres of the cells.", "quantifier": "for all sizes, orders, colours and pen widths", "why_tests_cant": "all orders and image sizes; a test compares one picture", "anchors": ["pythonbmp/BITMAPlib.py: savehilbertcurve2file", "pythonbmp/primitives2D.py: hilbertvert"]}
{"id": "C163", "title": "Files with Koch snowflakes", "statement": "The saved file is a valid square image of side 2(r + pen) + 2 with the background colour everywhere except on the snowflake, whose vertices all lie inside the image, at most one pixel outside the square around the circle of radius r about the middle.", "quantifier": "for all radii, orders, angles, colours and pen widths", "why_tests_cant": "all orders and all real angles", "anchors": ["pythonbmp/BITMAPlib.py: savekochsnowflake2file", "pythonbmp/primitives2D.py: kochsnowflakevert, regpolygonvert"]}
{"id": "C164", "title": "Dictionaries of named colours", "statement": "The three dictionaries of each family of named colours know the same names and agree on them: hue, saturation and lightness give the colour up to four steps of 255, the factors up to one millionth, and spellings with gray and grey name the same colour.", "quantifier": "for all names", "why_tests_cant": "hundreds of names in nine dictionaries, and all strings that are not names", "anchors": ["pythonbmp/colordict.py: getcolorname2HSLdict, getcolorname2RGBdict, getcolorname2RGBfactorsdict", "pythonbmp/X11colordict.py", "pythonbmp/XKCDcolordict.py"]}
{"id": "C165", "title": "Files with fractals", "statement": "The saved file is a valid image of the given size and depth in which every pixel has the palette colour of the number of steps after which the iteration from its point of the plane leaves the circle, stays in it or meets its own test.", "quantifier": "for all sizes, domains, parameters, palettes and depths", "why_tests_cant": "all domains and parameters; tests compare a few pictures", "anchors": ["pythonbmp/BITMAPlib.py: savemandelbrotfractal2file, savejuliafractal2file, savemultibiomorphfractal2file and 29 more", "pythonbmp/fractals.py: mandelbrot, julia, multibiomorph and others"]}
{"id": "C166", "title": "Text of elapsed times", "statement": "The text of an elapsed time, read as hours, minutes, seconds and a decimal fraction, is the elapsed time.", "quantifier": "for all times in nanoseconds", "why_tests_cant": "all times; a test sees a few", "anchors": ["pythonbmp/proctimer.py: hhmmsselaspedtime, elaspedtimeinseconds"]}
{"id": "C167", "title": "Points and tiles of a sphere", "statement": "For a sphere about the origin with a step that divides 180 degrees the points are the net of meridians and levels, each once, and the tiles are the patches of this net, each once; together they bound a body.", "quantifier": "for all radii and steps", "why_tests_cant": "all radii and all steps", "anchors": ["pythonbmp/solids3D.py: spherevertandsurface, spherevert, zlevelcoords, genspheresurfaces"]}
{"id": "C168", "title": "Pictures of Newton's method", "statement": "Every entry of the dictionary of functions is a polynomial and its derivative. In the saved picture the pixels from which Newton's method leads to a root have the colour of this root, with a number that belongs to it alone, shaded by the number of steps; the returned list has at most as many entries as the degree, each within 6/10^8 of a root.", "quantifier": "for all entries, sizes, domains, factors and numbers of iterations", "why_tests_cant": "all domains and sizes; a test compares a few pictures", "anchors": ["pythonbmp/fractals.py: funcparamdict, fractaldomainparamdict, newton, iternewtonsfractal", "pythonbmp/mathlib.py: newtonmethod", "pythonbmp/BITMAPlib.py: newtonsfractal, savenewtonsfractal2file"]}
{"id": "C169", "title": "Fonts", "statement": "Each of the six fonts has 256 glyphs of 8 or 14 rows; different characters have different glyphs, except for the three blank ones, and only these have no dots. The font generator gives every character the glyph of the dictionary or a blank.", "quantifier": "for all characters of all fonts, and all dictionaries of glyphs", "why_tests_cant": "all pairs of characters and all dictionaries", "anchors": ["pythonbmp/fonts.py: font8x8, font8x8thin, font8x14, font8x14thin, font8x8sanserif, font8x14sanserif, getcharfont", "source_code_gen/fontgen.py: makecharbuf", "source_code_gen/loadfont.py: getcharbmp, getcharset"]}
{"id": "C170", "title": "Texts can be read", "statement": "Two texts drawn in a font of the library in the same place give the same picture if and only if the same visible characters stand in the same lines and columns.", "quantifier": "for all text functions, pairs of texts, positions, scales, spacings, depths and backgrounds without the text colour", "why_tests_cant": "all pairs of texts; a test compares a few", "anchors": ["pythonbmp/fonts.py: all fonts", "pythonbmp/BITMAPlib.py: plotstring, plotstringfunc, plot8bitpattern, plotstringasdots, plotitalicstring, plotreversestring, plotstringupsidedown, plotstringsideway, plotstringvertical"]}
{"id": "C171", "title": "Percentages of the brightness gradients", "statement": "The percentages of a brightness gradient go evenly from the first to the second, row by row, column by column or through a disc, and every channel is the nearest whole number although they are added up as floats; further on equal colours never get darker if the percentages rise.", "quantifier": "for all images, rectangles or discs inside them, and percentages up to 10000", "why_tests_cant": "the sum of up to 2^24 rounded steps at every row and byte value", "anchors": ["pythonbmp/BITMAPlib.py: verticalbrightnessgradto24bitregion, horizontalbrightnessgradto24bitregion, verticalbrightnessgradto24bitimage, horizontalbrightnessgradto24bitimage, vertbrightnessgrad2circregion, horibrightnessgrad2circregion and their file versions", "pythonbmp/colors.py: applybrightnessadjtoBGRbuf"]}
{"id": "C172", "title": "Rounding of hue, saturation and luminosity", "statement": "The hue, saturation and luminosity returned by RGB2HSL are whole numbers nearest to the exact ones although every step is rounded to a float; they lie from 0 to 360, 0 to 100 and 0 to 100, and greys have hue and saturation 0.", "quantifier": "for all byte triples", "why_tests_cant": "16777216 colours, each with up to ten rounded operations", "anchors": ["pythonbmp/colors.py: RGB2HSL"]}
{"id": "C173", "title": "Transformations fit together", "statement": "Reflections, quarter turns, cutting, enlarging, reducing, inverting and the conversion to 24 bits obey the usual laws: both reflections commute and make half a turn, four quarter turns give the image back, a cut or enlarged reflection is the reflection of the cut or enlarged image, a part of a part is a part, enlarging twice is enlarging by the product, bigger and then smaller gives the image back, inverting commutes with all of these, and the direction of a turn does not depend on the depth.", "quantifier": "for all images, rectangles inside them and factors", "why_tests_cant": "pairs of programs on all images", "anchors": ["pythonbmp/BITMAPlib.py: flipvertical, fliphorizontal, flipXY, crop, resizeNtimesbigger, resizeNtimessmaller, invertimagebits, upgradeto24bitimage"]}
{"id": "C174", "title": "Lines in both directions and at the edge", "statement": "A line has the same points when its end points are exchanged, and of a line that leaves the image exactly the part inside is painted.", "quantifier": "for all end points and images", "why_tests_cant": "unbounded end points", "anchors": ["pythonbmp/BITMAPlib.py: line", "pythonbmp/primitives2D.py: iterline"]}
{"id": "C175", "title": "Curves computed with floats", "statement": "Computed with floats, the curves that are given by a formula have the pixels of the exact curve, but for points that are nearer than a thousandth of a pixel to the border between two pixels, where the next pixel may be taken; loops that add up a float do the right number of rounds, or one more or less when the limit is nearly a multiple of the step.", "quantifier": "for every arithmetic with relative rounding error 2^-53 and functions wrong by at most 2^-52, all parameters in the stated ranges (coordinates up to 2^20, radii up to 2^12 or 2^20) and all steps", "why_tests_cant": "errors depend on all parameters and on the library", "anchors": ["pythonbmp/primitives2D.py: iterspirograph", "pythonbmp/primitives2D.py: iterlissajouscurve", "pythonbmp/primitives2D.py: itercircleinvolute", "pythonbmp/primitives2D.py: iterepicycloid", "pythonbmp/primitives2D.py: iterhypotrochoid", "pythonbmp/primitives2D.py: iterflower", "pythonbmp/primitives2D.py: itergearcurve", "pythonbmp/primitives2D.py: itercornuspiral", "pythonbmp/primitives2D.py: iterheartcurve", "pythonbmp/primitives2D.py: floatregpolygonvert", "pythonbmp/primitives2D.py: iterellipserot"]}
{"id": "C176", "title": "Attractors computed with floats and their pictures", "statement": "The picture of a named attractor shows how often the bins of the image are hit by a list of n points, each of which comes from the one before by the map of that attractor up to a few roundings (relative to the sizes of the terms). The file written is that picture. Longer lists continue shorter ones, and the attractors made of sines stay within the bounds of their coefficients.", "quantifier": "for every library of functions wrong by at most 2^-52, all coefficients, all numbers of points, all images of 2x2 pixels and more, degrees of icons from 1 to 101", "why_tests_cant": "the points depend on every rounding, so no expected picture can be written down; the relation between neighbouring points must be shown for all states", "anchors": ["pythonbmp/BITMAPlib.py: ikedaattractor", "pythonbmp/BITMAPlib.py: nattractor", "pythonbmp/BITMAPlib.py: peterdejongattractor", "pythonbmp/BITMAPlib.py: duffingattractor", "pythonbmp/BITMAPlib.py: hopalongattractor", "pythonbmp/BITMAPlib.py: symmetriciconattractor", "pythonbmp/BITMAPlib.py: cliffordattractor", "pythonbmp/BITMAPlib.py: fractaldreamattractor", "pythonbmp/BITMAPlib.py: gumowskimiraattractor", "pythonbmp/BITMAPlib.py: saveikedaattractor2file", "pythonbmp/BITMAPlib.py: savenattractor2file", "pythonbmp/BITMAPlib.py: savepeterdejongattractor2file", "pythonbmp/BITMAPlib.py: saveduffingattractor2file", "pythonbmp/BITMAPlib.py: savehopalongattractor2file", "pythonbmp/BITMAPlib.py: savesymmetriciconattractor2file", "pythonbmp/BITMAPlib.py: savecliffordattractor2file", "pythonbmp/BITMAPlib.py: savefractaldreamattractor2file", "pythonbmp/BITMAPlib.py: savegumowskimiraattractor2file", "pythonbmp/fractals.py: ikedaattractorlist", "pythonbmp/fractals.py: nattractorlist", "pythonbmp/fractals.py: peterdejongattractorlist", "pythonbmp/fractals.py: duffingattractorlist", "pythonbmp/fractals.py: hopalongattractorlist", "pythonbmp/fractals.py: symmetriciconattractorlist", "pythonbmp/fractals.py: cliffordattractorlist", "pythonbmp/fractals.py: fractaldreamattractorlist", "pythonbmp/fractals.py: gumowskimiraattractorlist"]}
{"id": "C177", "title": "Escape times computed with floats", "statement": "multibrot, multicorn, multijulia, lambdafn and barnsleytree computed with floats return the exact escape time whenever the exact orbit keeps farther from the circle with the radius 2 than an explicit bound of the accumulated error; points closer to 0 than 1/4 are counted to the end for every limit, points farther than 2 not at all; the values are exactly the same at mirrored points (and at opposite points, for even Julia sets and trees); the saved pictures show the exact values at all such points; itermandelbrot, iterjulia and itertricorn yield each pixel with its value.", "quantifier": "for every library whose hypot is wrong by at most 2^-52, all points, all limits, exponents up to 100, all sizes, depths, domains and colour factors", "why_tests_cant": "the exact values cannot be computed by a program with floats; the bound holds for all orbits", "anchors": ["pythonbmp/fractals.py: multibrot, multicorn, multijulia, lambdafn, barnsleytree, itermandelbrot, iterjulia, itertricorn", "pythonbmp/BITMAPlib.py: savemandelbrotfractal2file, savemultibrotfractal2file, savetricornfractal2file, savemulticornfractal2file, savejuliafractal2file, savemultijuliafractal2file, savelambdafractal2file, savebarnsleytreefractal2file"]}
{"id": "C178", "title": "Pictures of superellipses", "statement": "multisuperellipse returns the size of P^d + Q^d modulo the limit as a float that is not rounded; the saved picture with 2^24 colours has the shade of this value at each pixel, with two colours a pixel has the first one only where the value is an even whole number, and with 16 or 256 colours the function raises TypeError and writes no file.", "quantifier": "for every power function wrong by at most 2^-52, all exponents, sizes, domains, colour factors and limits up to 255", "why_tests_cant": "all sizes and domains; whether a value is whole depends on every rounding", "anchors": ["pythonbmp/fractals.py: multisuperellipse, itermultisuperellipse", "pythonbmp/BITMAPlib.py: multisuperellipse, savemultisuperellipsefractal2file"]}
{"id": "C179", "title": "Saving and the search path", "statement": "ensurePaintWrapperInPath, which saveBMP calls, leaves PATH alone if the directory above the package is an entry of it and otherwise puts that directory and a separator before it; all entries are kept in order, other variables do not change, and further calls change nothing unless the directory's name contains the separator, when PATH grows with each bitmap saved; saveBMP writes the bytes to that file only.", "quantifier": "for all separators, directories, environments, files and bitmaps", "why_tests_cant": "all texts of the search path and all directories", "anchors": ["pythonbmp/BITMAPlib.py: ensurePaintWrapperInPath, saveBMP"]}
{"id": "C180", "title": "Several figures in one image", "statement": "After any sequence of points, rows, columns, lines, rectangles, circles, discs, thick lines and thick circles each pixel shows the colour of the last figure that covers it; figures without common pixels may be drawn in any order and any number of times; a picture drawn twice is the picture drawn once; a figure that the next one covers may be left out.", "quantifier": "for all images and all lists of figures and colours", "why_tests_cant": "all lists of calls and all orders; tests compare single calls", "anchors": ["pythonbmp/BITMAPlib.py: plotxybit, horiline, vertline, linevec, rectangle, filledrect, circle, filledcircle, thickroundline, thickcircle"]}
{"id": "C181", "title": "Figures in mirrored images", "statement": "Drawing any list of figures and then flipping the image shows the same picture as flipping the image and then drawing the mirrored figures, for flipvertical in all depths and fliphorizontal.", "quantifier": "for all images, lists of figures and colours", "why_tests_cant": "relates two different sequences of calls for all images and figures", "anchors": ["pythonbmp/BITMAPlib.py: plotxybit, horiline, vertline, linevec, rectangle, filledrect, circle, filledcircle, thickroundline, thickcircle", "pythonbmp/BITMAPlib.py: flipvertical, fliphorizontal"]}
{"id": "C182", "title": "Figures in inverted images", "statement": "Drawing any list of figures and then inverting the image shows the same picture as inverting the image and then drawing the figures in the inverted colours.", "quantifier": "for all images of all depths, lists of figures and colours", "why_tests_cant": "relates two different sequences of calls for all images and figures", "anchors": ["pythonbmp/BITMAPlib.py: plotxybit, horiline, vertline, linevec, rectangle, filledrect, circle, filledcircle, thickroundline, thickcircle", "pythonbmp/BITMAPlib.py: invertimagebits"]}
{"id": "C183", "title": "Figures in cropped images", "statement": "Drawing any list of figures and then cropping shows the same picture as cropping and then drawing the figures moved by the corner of the part.", "quantifier": "for all images, parts, lists of figures and colours", "why_tests_cant": "relates two different sequences of calls for all images and figures", "anchors": ["pythonbmp/BITMAPlib.py: plotxybit, horiline, vertline, linevec, rectangle, filledrect, circle, filledcircle, thickroundline, thickcircle", "pythonbmp/BITMAPlib.py: crop"]}
{"id": "C184", "title": "Figures and changes of colour", "statement": "Drawing any list of figures and then making a 24-bit image grey, brighter or darker, gamma corrected or limited in brightness shows the same picture as changing the image first and drawing the figures in the changed colours. In an image with a palette it does not matter whether entries of the palette are changed, or the palette is replaced or turned, before or after drawing.", "quantifier": "for all images, changes, lists of figures and colours", "why_tests_cant": "relates two different sequences of calls for all images and lists of figures; a test compares a few pictures", "anchors": ["pythonbmp/BITMAPlib.py: plotxybit, horiline, vertline, linevec, rectangle, filledrect, circle, filledcircle, thickroundline, thickcircle", "pythonbmp/BITMAPlib.py: monofilterto24bitimage, brightnesseadjto24bitimage, gammaadjto24bitimage, thresholdadjto24bitimage, colorfilterto24bitimage, setRGBpal, setbmppal, palshift"]}
{"id": "C185", "title": "Figures and conversion to true colour", "statement": "Drawing any list of figures in an image with a palette and then converting it to 24 bits shows the same picture as converting it first and drawing the figures in the colours of the palette.", "quantifier": "for all images with a palette, lists of figures and colours", "why_tests_cant": "relates two different sequences of calls for all images and lists of figures; a test compares a few pictures", "anchors": ["pythonbmp/BITMAPlib.py: plotxybit, horiline, vertline, linevec, rectangle, filledrect, circle, filledcircle, thickroundline, thickcircle", "pythonbmp/BITMAPlib.py: upgradeto24bitimage"]}
{"id": "C186", "title": "Laws of texts", "statement": "Drawing a text is the same as drawing its lines one after the other, and drawing a line is the same as drawing its parts one after the other, each where the part before it has stopped. A tab is the same as four spaces. A text of blanks, tabs and newlines leaves every byte as it was.", "quantifier": "for all text functions, texts, images, places, scales, spacings and colours; byte for byte, exceptions included", "why_tests_cant": "all texts and ways to divide them; a test compares a few", "anchors": ["pythonbmp/BITMAPlib.py: plotstring, plotstringasdots, plotitalicstring, plotreversestring, plotstringupsidedown, plotstringsideway, plotstringvertical, plotstringfunc, plotstringsidewayfn, plotstringverticalwithfn", "pythonbmp/fonts.py: getcharfont, all fonts"]}
{"id": "C187", "title": "Palettes in the order blue, green, red, and default palettes", "statement": "Setting a palette given in the order blue, green, red is the same as setting it in the order red, green, blue. isdefaultpal tells exactly whether the palette that is read back is the default one. matchRGBtodefault4bitpal gives the number of the default colour with the same components, rounded to off, half or full.", "quantifier": "for all images, palettes, colours, shifts and factors", "why_tests_cant": "all palettes and all 16777216 colours", "anchors": ["pythonbmp/BITMAPlib.py: setbmppalwithBGRlist, setbmppal, isdefaultpal, getallRGBpal", "pythonbmp/colors.py: matchRGBtodefault4bitpal, getdefaultbitpal, monoinverseshiftableBGRpal, monoinverseshiftablepal"]}
{"id": "C188", "title": "Points of curves and circles", "statement": "The points of a Bezier curve and of a B-spline stay in the rectangle around the control points, up to one step. circlevert gives exactly the points of the rasterised circle.", "quantifier": "for all control points, rectangles, flags, centres and radii", "why_tests_cant": "unbounded coordinates and numbers of points", "anchors": ["pythonbmp/primitives2D.py: beziercurvevert, iterbeziercurve, bsplinevert, iterbspline, circlevert, itercircle, iterline"]}
{"id": "C189", "title": "Iterated function systems stay bounded", "statement": "Wherever the orbit of the fern, the tree, the Cantor tree or the Sierpinski triangle starts, and whatever the random numbers are, its distance from a fixed rectangle shrinks to 97/100 or less in every round, also with rounded arithmetic.", "quantifier": "for all starting points, lists of random numbers and roundings with a relative error up to 1/1000", "why_tests_cant": "infinitely many starts and orbits", "anchors": ["pythonbmp/fractals.py: getIFSparams, iterIFS", "pythonbmp/BITMAPlib.py: IFS, fern"]}
{"id": "C190", "title": "Centre, neighbours and vectors", "statement": "centercoord is the middle pixel, getneighborcolorlist the colours of the pixels around, initmatrix a matrix of copies; rotvec3D gives turns that keep distances; plotRGBxybitvec stores a colour at its pixel only.", "quantifier": "for all images, pixels, sizes, angles and colours", "why_tests_cant": "all images and angles", "anchors": ["pythonbmp/BITMAPlib.py: centercoord, getneighborcolorlist, plotRGBxybitvec, getRGBxybitvec", "pythonbmp/mathlib.py: initmatrix", "pythonbmp/solids3D.py: rotvec3D, perspective"]}
{"id": "C191", "title": "Solids from vertices to pixels", "statement": "plot3Dsolid fills exactly the faces seen by the observer, at the places of their perspective picture and in the colours of their brightness, one after the other, and draws their outlines over them; a vertex in the plane of the observer raises ZeroDivisionError.", "quantifier": "for all bodies, turns, displacements, distances, colour factors and images", "why_tests_cant": "all bodies and points of view", "anchors": ["pythonbmp/BITMAPlib.py: plot3Dsolid, plot3d, plotpolyfillist, plotpolylist", "pythonbmp/solids3D.py: perspective, gensides, surfacetest", "pythonbmp/mathlib.py: getnormvec"]}
{"id": "C192", "title": "Figures in images with exchanged axes", "statement": "Drawing any list of figures and then exchanging the axes of the image (flipXY) gives the same image as exchanging the axes first and drawing the figures with their axes exchanged.", "quantifier": "for all images, lists of figures, places, sizes and colours", "why_tests_cant": "unbounded lists of figures and positions", "anchors": ["pythonbmp/BITMAPlib.py: flipXY, plotxybit, horiline, vertline, linevec, rectangle, filledrect, circle, filledcircle, thickroundline, thickcircle", "pythonbmp/primitives2D.py: iterline, itercircle, itercirclepartlineedge"]}
{"id": "C193", "title": "Figures in enlarged images", "statement": "Drawing figures of rows and columns and then enlarging the image n times gives the same image as enlarging it first and drawing the figures n times as big.", "quantifier": "for all images, lists of points, rows, columns, frames and boxes, factors and colours", "why_tests_cant": "unbounded lists of figures, positions and factors", "anchors": ["pythonbmp/BITMAPlib.py: resizeNtimesbigger, plotxybit, horiline, vertline, rectangle, filledrect"]}
{"id": "C194", "title": "Chains of file programs", "statement": "File programs may be run one after the other, each on the file written by the one before: the last file shows the source with the effects of all programs in their order and its palette, it is byte for byte what the functions for images in memory give, and no file that is not named in the chain is touched. Programs on rows and programs on columns may be exchanged at any place of a chain.", "quantifier": "for all images, chains of any length, programs, rectangles and file names, also repeated ones", "why_tests_cant": "unbounded chains and file systems", "anchors": ["pythonbmp/BITMAPlib.py: invertbits2file, flipvertical2file, fliphorizontal2file, mirrortop2file, mirrorbottom2file, mirrorleft2file, mirrorright2file, mirrortopleft2file, mirrortopright2file, mirrorbottomleft2file, mirrorbottomright2file, outline2file, eraseeverynthhoriline2file, invertregion2file, flipverticalregion2file, fliphorizontalregion2file, mirrortopinregion2file, mirrorbottominregion2file, mirrorleftinregion2file, mirrorrightinregion2file, loadBMP, saveBMP"]}
{"id": "C195", "title": "From figures to files", "statement": "A new image with figures drawn in it, written to a file, sent through a chain of file programs and loaded again shows every pixel in the colour that the programs give to the colour of the last figure over it. The difference of an image and the same image with figures is black outside of the figures.", "quantifier": "for all sizes, depths, lists of figures, chains of programs and file names", "why_tests_cant": "unbounded lists of figures and chains of programs", "anchors": ["pythonbmp/BITMAPlib.py: newBMP, saveBMP, loadBMP, getxybit, imagediff2file, showsimilarparts2file, the figures of C180 and the programs of C194"]}
{"id": "C196", "title": "Colours that the image does not have", "statement": "Drawing with a colour number that does not exist in the image is well defined. On images with a palette the figure is drawn in the remainder of the number by the number of colours (1-bit: every positive number is 1, every other 0). On 24-bit images a number that is negative or needs more than three bytes raises an error when the figure reaches the image and leaves the picture as it is otherwise.", "quantifier": "for all images, figures and integers as colours", "why_tests_cant": "unbounded integers and figures", "anchors": ["pythonbmp/BITMAPlib.py: plotxybit, horiline, vertline, line, linevec, rectangle, filledrect, circle, filledcircle, thickroundline, thickcircle", "pythonbmp/colors.py: int2RGB, int2BGRarr"]}
{"id": "C197", "title": "Drawing functions are stencils", "statement": "A call of any function that draws in one colour (points, lines, rectangles, circles, ellipses, arcs, polygons, filled polygons, curves, arrows, grids, ferns, texts) paints the same set of pixels whatever the image shows, whatever its palette and whatever the colour; the set depends on the arguments and on the size and depth of the image only. So in any mixture of such calls every pixel shows the last drawing over it, separate drawings may be exchanged, a covered drawing leaves no trace, drawing again in the colour of the ground erases, and inverting, toning, palette changes, flips and mirrors, cutting, enlarging and exchanging the axes may be done before or after drawing.", "quantifier": "for all images, lists of calls and colours", "why_tests_cant": "unbounded mixtures of calls of different functions on arbitrary images", "anchors": ["pythonbmp/BITMAPlib.py: plotxypointlist, plotlines, plotpoly, plotpolylist, thickplotpoly, plotpolyfill, filledparallelogram, fillboundary, ellipse, filledellipse, thickellipserot, drawarc, bspline, beziercurve, drawvec, xygrid, fern, plotstring and the other text functions, invertimagebits, flipvertical, mirrortop"]}
{"id": "C198", "title": "Files made by other programs", "statement": "Every uncompressed BMP file with 1, 4, 8 or 24 bits can be loaded and used: whatever its info header, wherever its pixel data begin and in whichever order its rows are stored, the size, palette and pixels reported by the library are those of the file, and flips, mirrors and inversion change the picture as they should.", "quantifier": "for all files that follow the file format, sizes and pixels", "why_tests_cant": "files of other programs differ in fields that no file written by the library exercises", "anchors": ["pythonbmp/BITMAPlib.py: loadBMP, getmaxxy, getxybit, plotxybit, getRGBpal, _24bmofhd, _8bmofhd, _4bmofhd, _1bmofhd, _hdsz, flipvertical, mirrortop, mirrorbottom, invertimagebits"]}
{"id": "C199", "title": "Files that were cut off", "statement": "A file whose end is missing loads as far as it goes and saves again unchanged. Every pixel whose bytes are left is read and plotted as in the whole file; reading or plotting any other pixel raises an error and changes nothing.", "quantifier": "for all images, places at which the file is cut, pixels and colours", "why_tests_cant": "any of millions of cutting places, and slices beyond the end silently change the length", "anchors": ["pythonbmp/BITMAPlib.py: loadBMP, saveBMP, getmaxxy, getxybit, plotxybit, horiline, flipvertical"]}
{"id": "C200", "title": "Drawing calls that raise an exception", "statement": "A call of a drawing function that raises an exception leaves the image exactly as it was before the call; a caller that catches the exception can go on with it.", "quantifier": "for all images, positions, colours and numbers that are no colours, and paths of any number of sides", "why_tests_cant": "needs every argument for which some statement in the middle of the function fails; the usual checks stop at the exception and do not look at the image", "anchors": ["pythonbmp/BITMAPlib.py: plotxybit, horiline, vertline, line, plotlines, plotpoly, plotpolylist, rectangle, filledrect, circle, filledcircle, ellipse, roundpen, plotxypointlist, thickroundline, thickcircle, xygrid, vertlinevert, horilinevert, filledparallelogram, setbmppal, setbmppalwithBGRAlist, setRGBpal, plot8bitpattern, plot8bitpatternupsidedown, plot8bitpatternsideway, plotitalic8bitpattern, plotstring, plotitalicstring, plotstringupsidedown, plotstringsideway"]}
{"id": "C201", "title": "Bytes that are no pixels", "statement": "Two images of the same size and depth with the same palette and the same pixels stay equal in this sense under every function, whatever the bytes between the rows and the unused bits at the end of a row are: the result depends on what is seen only.", "quantifier": "for all pairs of images of every size and depth, all lists of figures, texts, rectangles, factors and filters", "why_tests_cant": "an image made by the library has zeros between its rows; files of other programs may have anything there, and no test compares two files that differ only in these bytes", "anchors": ["pythonbmp/BITMAPlib.py: plotxybit, line, circle, filledcircle, plotstring, flipvertical, mirrortop, mirrorbottom, fliphorizontal, mirrorleft, mirrorright, flipXY, invertimagebits, invertregion, flipverticalregion, mirrortopinregion, mirrorbottominregion, crop, resizeNtimesbigger, upgradeto24bitimage, monofilterto24bitregion, brightnesseadjto24bitregion, imagediff, iterimagecolor, colorhistogram"]}
{"id": "C202", "title": "Programs that catch the exceptions of drawing calls and go on", "statement": "A program that makes a list of drawing calls, each in try and except, ends with a picture that follows call by call from the picture before: a colour colours the figure, a number that is no colour either leaves the picture alone, or is reduced to a colour, or leaves part of its bytes in the pixels of a column, or (negative, on 4-bit images) is added to bytes of the column in which a line starts. Size, depth, palette and rows stay intact, so the next calls work as usual.", "quantifier": "for all images of every size and depth, all lists of any length of figures that delete no bytes (C19, C20, C22, C24), and all integers as colours", "why_tests_cant": "a test of an exception ends when the exception is raised; the array that a caught exception leaves behind, and later calls on it, are never looked at", "anchors": ["pythonbmp/BITMAPlib.py: plotxybit, horiline, vertline, line, rectangle, filledrect, circle, filledcircle, thickroundline, thickcircle"]}
{"id": "C203", "title": "Repeated and exchanged drawing calls", "statement": "In a program that catches the exceptions of drawing calls, making a call twice in a row gives the picture of making it once, calls of which no two touch a pixel in common can be made in any order, and a call that the next one draws over as a whole can be left out, whether they raise exceptions or not.", "quantifier": "for all images of every size and depth, all lists of any length of figures that delete no bytes (C19, C20, C22, C24), all integers as colours, and all places in the list", "why_tests_cant": "tests draw each figure once on a new image; a second attempt after an exception, or another order of the calls, is not tried", "anchors": ["pythonbmp/BITMAPlib.py: plotxybit, horiline, vertline, line, rectangle, filledrect, circle, filledcircle, thickroundline, thickcircle"]}
