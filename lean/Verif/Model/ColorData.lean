import Verif.Model.Color
/-!
# Model of `Patro/GraphicStyle/Color/color_data.py`: the colours of the library

The tables are copied from the file.
-/

namespace Patro.Colour

open Xml (Text)

/-- `BASE_COLORS` (color_data.py:100-109). -/
def baseColors : List (String × String) := [
  ("black", "#000000"), ("blue", "#0000ff"), ("green", "#00ff00"), ("cyan", "#00ffff"), ("red", "#ff0000"), ("magenta", "#ff00ff"),
  ("yellow", "#ffff00"), ("white", "#ffffff")]

/-- `TABLEAU_COLORS` (color_data.py:114-125). -/
def tableauColors : List (String × String) := [
  ("blue", "#1f77b4"), ("brown", "#8c564b"), ("cyan", "#17becf"), ("gray", "#7f7f7f"), ("green", "#2ca02c"), ("olive", "#bcbd22"),
  ("orange", "#ff7f0e"), ("pink", "#e377c2"), ("purple", "#9467bd"), ("red", "#d62728")]

/-- `XKCD_COLORS` (color_data.py:136-1086), part 1. -/
def xkcdColors1 : List (String × String) := [
  ("robin's egg blue", "#98eff9"), ("robin's egg", "#6dedfd"), ("acid green", "#8ffe09"), ("adobe", "#bd6c48"),
  ("algae green", "#21c36f"), ("algae", "#54ac68"), ("almost black", "#070d0d"), ("amber", "#feb308"), ("amethyst", "#9b5fc0"),
  ("apple green", "#76cd26"), ("apple", "#6ecb3c"), ("apricot", "#ffb16d"), ("aqua blue", "#02d8e9"), ("aqua green", "#12e193"),
  ("aqua marine", "#2ee8bb"), ("aqua", "#13eac9"), ("aquamarine", "#04d8b2"), ("army green", "#4b5d16"), ("asparagus", "#77ab56"),
  ("aubergine", "#3d0734"), ("auburn", "#9a3001"), ("avocado green", "#87a922"), ("avocado", "#90b134"), ("azul", "#1d5dec"),
  ("azure", "#069af3"), ("baby blue", "#a2cffe"), ("baby green", "#8cff9e"), ("baby pink", "#ffb7ce"), ("baby poo", "#ab9004"),
  ("baby poop green", "#8f9805"), ("baby poop", "#937c00"), ("baby puke green", "#b6c406"), ("baby purple", "#ca9bf7"),
  ("baby shit brown", "#ad900d"), ("baby shit green", "#889717"), ("banana yellow", "#fafe4b"), ("banana", "#ffff7e"),
  ("barbie pink", "#fe46a5"), ("barf green", "#94ac02"), ("barney purple", "#a00498"), ("barney", "#ac1db8"),
  ("battleship grey", "#6b7c85"), ("beige", "#e6daa6"), ("berry", "#990f4b"), ("bile", "#b5c306"), ("black", "#000000"),
  ("bland", "#afa88b"), ("blood orange", "#fe4b03"), ("blood red", "#980002"), ("blood", "#770001"), ("blue blue", "#2242c7"),
  ("blue green", "#137e6d"), ("blue grey", "#607c8e"), ("blue purple", "#5729ce"), ("blue violet", "#5d06e9"),
  ("blue with a hint of purple", "#533cc6"), ("blue", "#0343df"), ("blue/green", "#0f9b8e"), ("blue/grey", "#758da3"),
  ("blue/purple", "#5a06ef"), ("blueberry", "#464196"), ("bluegreen", "#017a79"), ("bluegrey", "#85a3b2"), ("bluey green", "#2bb179"),
  ("bluey grey", "#89a0b0"), ("bluey purple", "#6241c7"), ("bluish green", "#10a674"), ("bluish grey", "#748b97"),
  ("bluish purple", "#703be7"), ("bluish", "#2976bb"), ("blurple", "#5539cc"), ("blush pink", "#fe828c"), ("blush", "#f29e8e"),
  ("booger green", "#96b403"), ("booger", "#9bb53c"), ("bordeaux", "#7b002c"), ("boring green", "#63b365"), ("bottle green", "#044a05"),
  ("brick orange", "#c14a09"), ("brick red", "#8f1402"), ("brick", "#a03623"), ("bright aqua", "#0bf9ea"), ("bright blue", "#0165fc"),
  ("bright cyan", "#41fdfe"), ("bright green", "#01ff07"), ("bright lavender", "#c760ff"), ("bright light blue", "#26f7fd"),
  ("bright light green", "#2dfe54"), ("bright lilac", "#c95efb"), ("bright lime green", "#65fe08"), ("bright lime", "#87fd05"),
  ("bright magenta", "#ff08e8"), ("bright olive", "#9cbb04"), ("bright orange", "#ff5b00"), ("bright pink", "#fe01b1"),
  ("bright purple", "#be03fd"), ("bright red", "#ff000d"), ("bright sea green", "#05ffa6"), ("bright sky blue", "#02ccfe"),
  ("bright teal", "#01f9c6")]

/-- `XKCD_COLORS` (color_data.py:136-1086), part 2. -/
def xkcdColors2 : List (String × String) := [
  ("bright turquoise", "#0ffef9"), ("bright violet", "#ad0afd"), ("bright yellow green", "#9dff00"), ("bright yellow", "#fffd01"),
  ("british racing green", "#05480d"), ("bronze", "#a87900"), ("brown green", "#706c11"), ("brown grey", "#8d8468"),
  ("brown orange", "#b96902"), ("brown red", "#922b05"), ("brown yellow", "#b29705"), ("brown", "#653700"),
  ("brownish green", "#6a6e09"), ("brownish grey", "#86775f"), ("brownish orange", "#cb7723"), ("brownish pink", "#c27e79"),
  ("brownish purple", "#76424e"), ("brownish red", "#9e3623"), ("brownish yellow", "#c9b003"), ("brownish", "#9c6d57"),
  ("browny green", "#6f6c0a"), ("browny orange", "#ca6b02"), ("bruise", "#7e4071"), ("bubble gum pink", "#ff69af"),
  ("bubblegum pink", "#fe83cc"), ("bubblegum", "#ff6cb5"), ("buff", "#fef69e"), ("burgundy", "#610023"), ("burnt orange", "#c04e01"),
  ("burnt red", "#9f2305"), ("burnt siena", "#b75203"), ("burnt sienna", "#b04e0f"), ("burnt umber", "#a0450e"),
  ("burnt yellow", "#d5ab09"), ("burple", "#6832e3"), ("butter yellow", "#fffd74"), ("butter", "#ffff81"), ("butterscotch", "#fdb147"),
  ("cadet blue", "#4e7496"), ("camel", "#c69f59"), ("camo green", "#526525"), ("camo", "#7f8f4e"), ("camouflage green", "#4b6113"),
  ("canary yellow", "#fffe40"), ("canary", "#fdff63"), ("candy pink", "#ff63e9"), ("caramel", "#af6f09"), ("carmine", "#9d0216"),
  ("carnation pink", "#ff7fa7"), ("carnation", "#fd798f"), ("carolina blue", "#8ab8fe"), ("celadon", "#befdb7"), ("celery", "#c1fd95"),
  ("cement", "#a5a391"), ("cerise", "#de0c62"), ("cerulean blue", "#056eee"), ("cerulean", "#0485d1"), ("charcoal grey", "#3c4142"),
  ("charcoal", "#343837"), ("chartreuse", "#c1f80a"), ("cherry red", "#f7022a"), ("cherry", "#cf0234"), ("chestnut", "#742802"),
  ("chocolate brown", "#411900"), ("chocolate", "#3d1c02"), ("cinnamon", "#ac4f06"), ("claret", "#680018"), ("clay brown", "#b2713d"),
  ("clay", "#b66a50"), ("clear blue", "#247afd"), ("cloudy blue", "#acc2d9"), ("cobalt blue", "#030aa7"), ("cobalt", "#1e488f"),
  ("cocoa", "#875f42"), ("coffee", "#a6814c"), ("cool blue", "#4984b8"), ("cool green", "#33b864"), ("cool grey", "#95a3a6"),
  ("copper", "#b66325"), ("coral pink", "#ff6163"), ("coral", "#fc5a50"), ("cornflower blue", "#5170d7"), ("cornflower", "#6a79f7"),
  ("cranberry", "#9e003a"), ("cream", "#ffffc2"), ("creme", "#ffffb6"), ("crimson", "#8c000f"), ("custard", "#fffd78"),
  ("cyan", "#00ffff"), ("dandelion", "#fedf08"), ("dark aqua", "#05696b"), ("dark aquamarine", "#017371"), ("dark beige", "#ac9362"),
  ("dark blue green", "#005249"), ("dark blue grey", "#1f3b4d"), ("dark blue", "#00035b"), ("dark brown", "#341c02"),
  ("dark coral", "#cf524e"), ("dark cream", "#fff39a"), ("dark cyan", "#0a888a")]

/-- `XKCD_COLORS` (color_data.py:136-1086), part 3. -/
def xkcdColors3 : List (String × String) := [
  ("dark forest green", "#002d04"), ("dark fuchsia", "#9d0759"), ("dark gold", "#b59410"), ("dark grass green", "#388004"),
  ("dark green blue", "#1f6357"), ("dark green", "#033500"), ("dark grey blue", "#29465b"), ("dark grey", "#363737"),
  ("dark hot pink", "#d90166"), ("dark indigo", "#1f0954"), ("dark khaki", "#9b8f55"), ("dark lavender", "#856798"),
  ("dark lilac", "#9c6da5"), ("dark lime green", "#7ebd01"), ("dark lime", "#84b701"), ("dark magenta", "#960056"),
  ("dark maroon", "#3c0008"), ("dark mauve", "#874c62"), ("dark mint green", "#20c073"), ("dark mint", "#48c072"),
  ("dark mustard", "#a88905"), ("dark navy blue", "#00022e"), ("dark navy", "#000435"), ("dark olive green", "#3c4d03"),
  ("dark olive", "#373e02"), ("dark orange", "#c65102"), ("dark pastel green", "#56ae57"), ("dark peach", "#de7e5d"),
  ("dark periwinkle", "#665fd1"), ("dark pink", "#cb416b"), ("dark plum", "#3f012c"), ("dark purple", "#35063e"),
  ("dark red", "#840000"), ("dark rose", "#b5485d"), ("dark royal blue", "#02066f"), ("dark sage", "#598556"),
  ("dark salmon", "#c85a53"), ("dark sand", "#a88f59"), ("dark sea green", "#11875d"), ("dark seafoam green", "#3eaf76"),
  ("dark seafoam", "#1fb57a"), ("dark sky blue", "#448ee4"), ("dark slate blue", "#214761"), ("dark tan", "#af884a"),
  ("dark taupe", "#7f684e"), ("dark teal", "#014d4e"), ("dark turquoise", "#045c5a"), ("dark violet", "#34013f"),
  ("dark yellow green", "#728f02"), ("dark yellow", "#d5b60a"), ("dark", "#1b2431"), ("darkblue", "#030764"), ("darkgreen", "#054907"),
  ("darkish blue", "#014182"), ("darkish green", "#287c37"), ("darkish pink", "#da467d"), ("darkish purple", "#751973"),
  ("darkish red", "#a90308"), ("deep aqua", "#08787f"), ("deep blue", "#040273"), ("deep brown", "#410200"), ("deep green", "#02590f"),
  ("deep lavender", "#8d5eb7"), ("deep lilac", "#966ebd"), ("deep magenta", "#a0025c"), ("deep orange", "#dc4d01"),
  ("deep pink", "#cb0162"), ("deep purple", "#36013f"), ("deep red", "#9a0200"), ("deep rose", "#c74767"), ("deep sea blue", "#015482"),
  ("deep sky blue", "#0d75f8"), ("deep teal", "#00555a"), ("deep turquoise", "#017374"), ("deep violet", "#490648"),
  ("denim blue", "#3b5b92"), ("denim", "#3b638c"), ("desert", "#ccad60"), ("diarrhea", "#9f8303"), ("dirt brown", "#836539"),
  ("dirt", "#8a6e45"), ("dirty blue", "#3f829d"), ("dirty green", "#667e2c"), ("dirty orange", "#c87606"), ("dirty pink", "#ca7b80"),
  ("dirty purple", "#734a65"), ("dirty yellow", "#cdc50a"), ("dodger blue", "#3e82fc"), ("drab green", "#749551"), ("drab", "#828344"),
  ("dried blood", "#4b0101"), ("duck egg blue", "#c3fbf4"), ("dull blue", "#49759c"), ("dull brown", "#876e4b"),
  ("dull green", "#74a662"), ("dull orange", "#d8863b"), ("dull pink", "#d5869d"), ("dull purple", "#84597e"), ("dull red", "#bb3f3f"),
  ("dull teal", "#5f9e8f")]

/-- `XKCD_COLORS` (color_data.py:136-1086), part 4. -/
def xkcdColors4 : List (String × String) := [
  ("dull yellow", "#eedc5b"), ("dusk blue", "#26538d"), ("dusk", "#4e5481"), ("dusky blue", "#475f94"), ("dusky pink", "#cc7a8b"),
  ("dusky purple", "#895b7b"), ("dusky rose", "#ba6873"), ("dust", "#b2996e"), ("dusty blue", "#5a86ad"), ("dusty green", "#76a973"),
  ("dusty lavender", "#ac86a8"), ("dusty orange", "#f0833a"), ("dusty pink", "#d58a94"), ("dusty purple", "#825f87"),
  ("dusty red", "#b9484e"), ("dusty rose", "#c0737a"), ("dusty teal", "#4c9085"), ("earth", "#a2653e"), ("easter green", "#8cfd7e"),
  ("easter purple", "#c071fe"), ("ecru", "#feffca"), ("egg shell", "#fffcc4"), ("eggplant purple", "#430541"), ("eggplant", "#380835"),
  ("eggshell blue", "#c4fff7"), ("eggshell", "#ffffd4"), ("electric blue", "#0652ff"), ("electric green", "#21fc0d"),
  ("electric lime", "#a8ff04"), ("electric pink", "#ff0490"), ("electric purple", "#aa23ff"), ("emerald green", "#028f1e"),
  ("emerald", "#01a049"), ("evergreen", "#05472a"), ("faded blue", "#658cbb"), ("faded green", "#7bb274"), ("faded orange", "#f0944d"),
  ("faded pink", "#de9dac"), ("faded purple", "#916e99"), ("faded red", "#d3494e"), ("faded yellow", "#feff7f"), ("fawn", "#cfaf7b"),
  ("fern green", "#548d44"), ("fern", "#63a950"), ("fire engine red", "#fe0002"), ("flat blue", "#3c73a8"), ("flat green", "#699d4c"),
  ("fluorescent green", "#08ff08"), ("fluro green", "#0aff02"), ("foam green", "#90fda9"), ("forest green", "#06470c"),
  ("forest", "#0b5509"), ("forrest green", "#154406"), ("french blue", "#436bad"), ("fresh green", "#69d84f"),
  ("frog green", "#58bc08"), ("fuchsia", "#ed0dd9"), ("gold", "#dbb40c"), ("golden brown", "#b27a01"), ("golden rod", "#f9bc08"),
  ("golden yellow", "#fec615"), ("golden", "#f5bf03"), ("goldenrod", "#fac205"), ("grape purple", "#5d1451"), ("grape", "#6c3461"),
  ("grapefruit", "#fd5956"), ("grass green", "#3f9b0b"), ("grass", "#5cac2d"), ("grassy green", "#419c03"), ("green apple", "#5edc1f"),
  ("green blue", "#06b48b"), ("green brown", "#544e03"), ("green grey", "#77926f"), ("green teal", "#0cb577"),
  ("green yellow", "#c9ff27"), ("green", "#15b01a"), ("green/blue", "#01c08d"), ("green/yellow", "#b5ce08"), ("greenblue", "#23c48b"),
  ("greenish beige", "#c9d179"), ("greenish blue", "#0b8b87"), ("greenish brown", "#696112"), ("greenish cyan", "#2afeb7"),
  ("greenish grey", "#96ae8d"), ("greenish tan", "#bccb7a"), ("greenish teal", "#32bf84"), ("greenish turquoise", "#00fbb0"),
  ("greenish yellow", "#cdfd02"), ("greenish", "#40a368"), ("greeny blue", "#42b395"), ("greeny brown", "#696006"),
  ("greeny grey", "#7ea07a"), ("greeny yellow", "#c6f808"), ("grey blue", "#6b8ba4"), ("grey brown", "#7f7053"),
  ("grey green", "#789b73"), ("grey pink", "#c3909b"), ("grey purple", "#826d8c"), ("grey teal", "#5e9b8a"), ("grey", "#929591")]

/-- `XKCD_COLORS` (color_data.py:136-1086), part 5. -/
def xkcdColors5 : List (String × String) := [
  ("grey/blue", "#647d8e"), ("grey/green", "#86a17d"), ("greyblue", "#77a1b5"), ("greyish blue", "#5e819d"),
  ("greyish brown", "#7a6a4f"), ("greyish green", "#82a67d"), ("greyish pink", "#c88d94"), ("greyish purple", "#887191"),
  ("greyish teal", "#719f91"), ("greyish", "#a8a495"), ("gross green", "#a0bf16"), ("gunmetal", "#536267"), ("hazel", "#8e7618"),
  ("heather", "#a484ac"), ("heliotrope", "#d94ff5"), ("highlighter green", "#1bfc06"), ("hospital green", "#9be5aa"),
  ("hot green", "#25ff29"), ("hot magenta", "#f504c9"), ("hot pink", "#ff028d"), ("hot purple", "#cb00f5"), ("hunter green", "#0b4008"),
  ("ice blue", "#d7fffe"), ("ice", "#d6fffa"), ("icky green", "#8fae22"), ("indian red", "#850e04"), ("indigo blue", "#3a18b1"),
  ("indigo", "#380282"), ("iris", "#6258c4"), ("irish green", "#019529"), ("ivory", "#ffffcb"), ("jade green", "#2baf6a"),
  ("jade", "#1fa774"), ("jungle green", "#048243"), ("kelley green", "#009337"), ("kelly green", "#02ab2e"),
  ("kermit green", "#5cb200"), ("key lime", "#aeff6e"), ("khaki green", "#728639"), ("khaki", "#aaa662"), ("kiwi green", "#8ee53f"),
  ("kiwi", "#9cef43"), ("lavender blue", "#8b88f8"), ("lavender pink", "#dd85d7"), ("lavender", "#c79fef"), ("lawn green", "#4da409"),
  ("leaf green", "#5ca904"), ("leaf", "#71aa34"), ("leafy green", "#51b73b"), ("leather", "#ac7434"), ("lemon green", "#adf802"),
  ("lemon lime", "#bffe28"), ("lemon yellow", "#fdff38"), ("lemon", "#fdff52"), ("lichen", "#8fb67b"), ("light aqua", "#8cffdb"),
  ("light aquamarine", "#7bfdc7"), ("light beige", "#fffeb6"), ("light blue green", "#7efbb3"), ("light blue grey", "#b7c9e2"),
  ("light blue", "#95d0fc"), ("light bluish green", "#76fda8"), ("light bright green", "#53fe5c"), ("light brown", "#ad8150"),
  ("light burgundy", "#a8415b"), ("light cyan", "#acfffc"), ("light eggplant", "#894585"), ("light forest green", "#4f9153"),
  ("light gold", "#fddc5c"), ("light grass green", "#9af764"), ("light green blue", "#56fca2"), ("light green", "#96f97b"),
  ("light greenish blue", "#63f7b4"), ("light grey blue", "#9dbcd4"), ("light grey green", "#b7e1a1"), ("light grey", "#d8dcd6"),
  ("light indigo", "#6d5acf"), ("light khaki", "#e6f2a2"), ("light lavendar", "#efc0fe"), ("light lavender", "#dfc5fe"),
  ("light light blue", "#cafffb"), ("light light green", "#c8ffb0"), ("light lilac", "#edc8ff"), ("light lime green", "#b9ff66"),
  ("light lime", "#aefd6c"), ("light magenta", "#fa5ff7"), ("light maroon", "#a24857"), ("light mauve", "#c292a1"),
  ("light mint green", "#a6fbb2"), ("light mint", "#b6ffbb"), ("light moss green", "#a6c875"), ("light mustard", "#f7d560"),
  ("light navy blue", "#2e5a88"), ("light navy", "#155084"), ("light neon green", "#4efd54"), ("light olive green", "#a4be5c"),
  ("light olive", "#acbf69"), ("light orange", "#fdaa48"), ("light pastel green", "#b2fba5"), ("light pea green", "#c4fe82")]

/-- `XKCD_COLORS` (color_data.py:136-1086), part 6. -/
def xkcdColors6 : List (String × String) := [
  ("light peach", "#ffd8b1"), ("light periwinkle", "#c1c6fc"), ("light pink", "#ffd1df"), ("light plum", "#9d5783"),
  ("light purple", "#bf77f6"), ("light red", "#ff474c"), ("light rose", "#ffc5cb"), ("light royal blue", "#3a2efe"),
  ("light sage", "#bcecac"), ("light salmon", "#fea993"), ("light sea green", "#98f6b0"), ("light seafoam green", "#a7ffb5"),
  ("light seafoam", "#a0febf"), ("light sky blue", "#c6fcff"), ("light tan", "#fbeeac"), ("light teal", "#90e4c1"),
  ("light turquoise", "#7ef4cc"), ("light urple", "#b36ff6"), ("light violet", "#d6b4fc"), ("light yellow green", "#ccfd7f"),
  ("light yellow", "#fffe7a"), ("light yellowish green", "#c2ff89"), ("lightblue", "#7bc8f6"), ("lighter green", "#75fd63"),
  ("lighter purple", "#a55af4"), ("lightgreen", "#76ff7b"), ("lightish blue", "#3d7afd"), ("lightish green", "#61e160"),
  ("lightish purple", "#a552e6"), ("lightish red", "#fe2f4a"), ("lilac", "#cea2fd"), ("liliac", "#c48efd"), ("lime green", "#89fe05"),
  ("lime yellow", "#d0fe1d"), ("lime", "#aaff32"), ("lipstick red", "#c0022f"), ("lipstick", "#d5174e"),
  ("macaroni and cheese", "#efb435"), ("magenta", "#c20078"), ("mahogany", "#4a0100"), ("maize", "#f4d054"), ("mango", "#ffa62b"),
  ("manilla", "#fffa86"), ("marigold", "#fcc006"), ("marine blue", "#01386a"), ("marine", "#042e60"), ("maroon", "#650021"),
  ("mauve", "#ae7181"), ("medium blue", "#2c6fbb"), ("medium brown", "#7f5112"), ("medium green", "#39ad48"),
  ("medium grey", "#7d7f7c"), ("medium pink", "#f36196"), ("medium purple", "#9e43a2"), ("melon", "#ff7855"), ("merlot", "#730039"),
  ("metallic blue", "#4f738e"), ("mid blue", "#276ab3"), ("mid green", "#50a747"), ("midnight blue", "#020035"),
  ("midnight purple", "#280137"), ("midnight", "#03012d"), ("military green", "#667c3e"), ("milk chocolate", "#7f4e1e"),
  ("mint green", "#8fff9f"), ("mint", "#9ffeb0"), ("minty green", "#0bf77d"), ("mocha", "#9d7651"), ("moss green", "#658b38"),
  ("moss", "#769958"), ("mossy green", "#638b27"), ("mud brown", "#60460f"), ("mud green", "#606602"), ("mud", "#735c12"),
  ("muddy brown", "#886806"), ("muddy green", "#657432"), ("muddy yellow", "#bfac05"), ("mulberry", "#920a4e"),
  ("murky green", "#6c7a0e"), ("mushroom", "#ba9e88"), ("mustard brown", "#ac7e04"), ("mustard green", "#a8b504"),
  ("mustard yellow", "#d2bd0a"), ("mustard", "#ceb301"), ("muted blue", "#3b719f"), ("muted green", "#5fa052"),
  ("muted pink", "#d1768f"), ("muted purple", "#805b87"), ("nasty green", "#70b23f"), ("navy blue", "#001146"),
  ("navy green", "#35530a"), ("navy", "#01153e"), ("neon blue", "#04d9ff"), ("neon green", "#0cff0c"), ("neon pink", "#fe019a"),
  ("neon purple", "#bc13fe"), ("neon red", "#ff073a"), ("neon yellow", "#cfff04"), ("nice blue", "#107ab0"), ("night blue", "#040348")]

/-- `XKCD_COLORS` (color_data.py:136-1086), part 7. -/
def xkcdColors7 : List (String × String) := [
  ("ocean blue", "#03719c"), ("ocean green", "#3d9973"), ("ocean", "#017b92"), ("ocher", "#bf9b0c"), ("ochre", "#bf9005"),
  ("ocre", "#c69c04"), ("off blue", "#5684ae"), ("off green", "#6ba353"), ("off white", "#ffffe4"), ("off yellow", "#f1f33f"),
  ("old pink", "#c77986"), ("old rose", "#c87f89"), ("olive brown", "#645403"), ("olive drab", "#6f7632"), ("olive green", "#677a04"),
  ("olive yellow", "#c2b709"), ("olive", "#6e750e"), ("orange brown", "#be6400"), ("orange pink", "#ff6f52"), ("orange red", "#fd411e"),
  ("orange yellow", "#ffad01"), ("orange", "#f97306"), ("orangeish", "#fd8d49"), ("orangered", "#fe420f"), ("orangey brown", "#b16002"),
  ("orangey red", "#fa4224"), ("orangey yellow", "#fdb915"), ("orangish brown", "#b25f03"), ("orangish red", "#f43605"),
  ("orangish", "#fc824a"), ("orchid", "#c875c4"), ("pale aqua", "#b8ffeb"), ("pale blue", "#d0fefe"), ("pale brown", "#b1916e"),
  ("pale cyan", "#b7fffa"), ("pale gold", "#fdde6c"), ("pale green", "#c7fdb5"), ("pale grey", "#fdfdfe"), ("pale lavender", "#eecffe"),
  ("pale light green", "#b1fc99"), ("pale lilac", "#e4cbff"), ("pale lime green", "#b1ff65"), ("pale lime", "#befd73"),
  ("pale magenta", "#d767ad"), ("pale mauve", "#fed0fc"), ("pale olive green", "#b1d27b"), ("pale olive", "#b9cc81"),
  ("pale orange", "#ffa756"), ("pale peach", "#ffe5ad"), ("pale pink", "#ffcfdc"), ("pale purple", "#b790d4"), ("pale red", "#d9544d"),
  ("pale rose", "#fdc1c5"), ("pale salmon", "#ffb19a"), ("pale sky blue", "#bdf6fe"), ("pale teal", "#82cbb2"),
  ("pale turquoise", "#a5fbd5"), ("pale violet", "#ceaefa"), ("pale yellow", "#ffff84"), ("pale", "#fff9d0"), ("parchment", "#fefcaf"),
  ("pastel blue", "#a2bffe"), ("pastel green", "#b0ff9d"), ("pastel orange", "#ff964f"), ("pastel pink", "#ffbacd"),
  ("pastel purple", "#caa0ff"), ("pastel red", "#db5856"), ("pastel yellow", "#fffe71"), ("pea green", "#8eab12"),
  ("pea soup green", "#94a617"), ("pea soup", "#929901"), ("pea", "#a4bf20"), ("peach", "#ffb07c"), ("peachy pink", "#ff9a8a"),
  ("peacock blue", "#016795"), ("pear", "#cbf85f"), ("periwinkle blue", "#8f99fb"), ("periwinkle", "#8e82fe"),
  ("perrywinkle", "#8f8ce7"), ("petrol", "#005f6a"), ("pig pink", "#e78ea5"), ("pine green", "#0a481e"), ("pine", "#2b5d34"),
  ("pink purple", "#db4bda"), ("pink red", "#f5054f"), ("pink", "#ff81c0"), ("pink/purple", "#ef1de7"), ("pinkish brown", "#b17261"),
  ("pinkish grey", "#c8aca9"), ("pinkish orange", "#ff724c"), ("pinkish purple", "#d648d7"), ("pinkish red", "#f10c45"),
  ("pinkish tan", "#d99b82"), ("pinkish", "#d46a7e"), ("pinky purple", "#c94cbe"), ("pinky red", "#fc2647"), ("pinky", "#fc86aa"),
  ("piss yellow", "#ddd618"), ("pistachio", "#c0fa8b"), ("plum purple", "#4e0550")]

/-- `XKCD_COLORS` (color_data.py:136-1086), part 8. -/
def xkcdColors8 : List (String × String) := [
  ("plum", "#580f41"), ("poison green", "#40fd14"), ("poo brown", "#885f01"), ("poo", "#8f7303"), ("poop brown", "#7a5901"),
  ("poop green", "#6f7c00"), ("poop", "#7f5e00"), ("powder blue", "#b1d1fc"), ("powder pink", "#ffb2d0"), ("primary blue", "#0804f9"),
  ("prussian blue", "#004577"), ("puce", "#a57e52"), ("puke brown", "#947706"), ("puke green", "#9aae07"), ("puke yellow", "#c2be0e"),
  ("puke", "#a5a502"), ("pumpkin orange", "#fb7d07"), ("pumpkin", "#e17701"), ("pure blue", "#0203e2"), ("purple blue", "#632de9"),
  ("purple brown", "#673a3f"), ("purple grey", "#866f85"), ("purple pink", "#e03fd8"), ("purple red", "#990147"), ("purple", "#7e1e9c"),
  ("purple/blue", "#5d21d0"), ("purple/pink", "#d725de"), ("purpleish blue", "#6140ef"), ("purpleish pink", "#df4ec8"),
  ("purpleish", "#98568d"), ("purpley blue", "#5f34e7"), ("purpley grey", "#947e94"), ("purpley pink", "#c83cb9"),
  ("purpley", "#8756e4"), ("purplish blue", "#601ef9"), ("purplish brown", "#6b4247"), ("purplish grey", "#7a687f"),
  ("purplish pink", "#ce5dae"), ("purplish red", "#b0054b"), ("purplish", "#94568c"), ("purply blue", "#661aee"),
  ("purply pink", "#f075e6"), ("purply", "#983fb2"), ("putty", "#beae8a"), ("racing green", "#014600"),
  ("radioactive green", "#2cfa1f"), ("raspberry", "#b00149"), ("raw sienna", "#9a6200"), ("raw umber", "#a75e09"),
  ("really light blue", "#d4ffff"), ("red brown", "#8b2e16"), ("red orange", "#fd3c06"), ("red pink", "#fa2a55"),
  ("red purple", "#820747"), ("red violet", "#9e0168"), ("red wine", "#8c0034"), ("red", "#e50000"), ("reddish brown", "#7f2b0a"),
  ("reddish grey", "#997570"), ("reddish orange", "#f8481c"), ("reddish pink", "#fe2c54"), ("reddish purple", "#910951"),
  ("reddish", "#c44240"), ("reddy brown", "#6e1005"), ("rich blue", "#021bf9"), ("rich purple", "#720058"),
  ("robin egg blue", "#8af1fe"), ("rosa", "#fe86a4"), ("rose pink", "#f7879a"), ("rose red", "#be013c"), ("rose", "#cf6275"),
  ("rosy pink", "#f6688e"), ("rouge", "#ab1239"), ("royal blue", "#0504aa"), ("royal purple", "#4b006e"), ("royal", "#0c1793"),
  ("ruby", "#ca0147"), ("russet", "#a13905"), ("rust brown", "#8b3103"), ("rust orange", "#c45508"), ("rust red", "#aa2704"),
  ("rust", "#a83c09"), ("rusty orange", "#cd5909"), ("rusty red", "#af2f0d"), ("saffron", "#feb209"), ("sage green", "#88b378"),
  ("sage", "#87ae73"), ("salmon pink", "#fe7b7c"), ("salmon", "#ff796c"), ("sand brown", "#cba560"), ("sand yellow", "#fce166"),
  ("sand", "#e2ca76"), ("sandstone", "#c9ae74"), ("sandy brown", "#c4a661"), ("sandy yellow", "#fdee73"), ("sandy", "#f1da7a"),
  ("sap green", "#5c8b15"), ("sapphire", "#2138ab"), ("scarlet", "#be0119"), ("sea blue", "#047495")]

/-- `XKCD_COLORS` (color_data.py:136-1086), part 9. -/
def xkcdColors9 : List (String × String) := [
  ("sea green", "#53fca1"), ("sea", "#3c9992"), ("seafoam blue", "#78d1b6"), ("seafoam green", "#7af9ab"), ("seafoam", "#80f9ad"),
  ("seaweed green", "#35ad6b"), ("seaweed", "#18d17b"), ("sepia", "#985e2b"), ("shamrock green", "#02c14d"), ("shamrock", "#01b44c"),
  ("shit brown", "#7b5804"), ("shit green", "#758000"), ("shit", "#7f5f00"), ("shocking pink", "#fe02a2"), ("sick green", "#9db92c"),
  ("sickly green", "#94b21c"), ("sickly yellow", "#d0e429"), ("sienna", "#a9561e"), ("silver", "#c5c9c7"), ("sky blue", "#75bbfd"),
  ("sky", "#82cafc"), ("slate blue", "#5b7c99"), ("slate green", "#658d6d"), ("slate grey", "#59656d"), ("slate", "#516572"),
  ("slime green", "#99cc04"), ("snot green", "#9dc100"), ("snot", "#acbb0d"), ("soft blue", "#6488ea"), ("soft green", "#6fc276"),
  ("soft pink", "#fdb0c0"), ("soft purple", "#a66fb5"), ("spearmint", "#1ef876"), ("spring green", "#a9f971"), ("spruce", "#0a5f38"),
  ("squash", "#f2ab15"), ("steel blue", "#5a7d9a"), ("steel grey", "#6f828a"), ("steel", "#738595"), ("stone", "#ada587"),
  ("stormy blue", "#507b9c"), ("straw", "#fcf679"), ("strawberry", "#fb2943"), ("strong blue", "#0c06f7"), ("strong pink", "#ff0789"),
  ("sun yellow", "#ffdf22"), ("sunflower yellow", "#ffda03"), ("sunflower", "#ffc512"), ("sunny yellow", "#fff917"),
  ("sunshine yellow", "#fffd37"), ("swamp green", "#748500"), ("swamp", "#698339"), ("tan brown", "#ab7e4c"), ("tan green", "#a9be70"),
  ("tan", "#d1b26f"), ("tangerine", "#ff9408"), ("taupe", "#b9a281"), ("tea green", "#bdf8a3"), ("tea", "#65ab7c"),
  ("teal blue", "#01889f"), ("teal green", "#25a36f"), ("teal", "#029386"), ("tealish green", "#0cdc73"), ("tealish", "#24bca8"),
  ("terra cotta", "#c9643b"), ("terracota", "#cb6843"), ("terracotta", "#ca6641"), ("tiffany blue", "#7bf2da"),
  ("tomato red", "#ec2d01"), ("tomato", "#ef4026"), ("topaz", "#13bbaf"), ("toupe", "#c7ac7d"), ("toxic green", "#61de2a"),
  ("tree green", "#2a7e19"), ("true blue", "#010fcc"), ("true green", "#089404"), ("turquoise blue", "#06b1c4"),
  ("turquoise green", "#04f489"), ("turquoise", "#06c2ac"), ("turtle green", "#75b84f"), ("twilight blue", "#0a437a"),
  ("twilight", "#4e518b"), ("ugly blue", "#31668a"), ("ugly brown", "#7d7103"), ("ugly green", "#7a9703"), ("ugly pink", "#cd7584"),
  ("ugly purple", "#a442a0"), ("ugly yellow", "#d0c101"), ("ultramarine blue", "#1805db"), ("ultramarine", "#2000b1"),
  ("umber", "#b26400"), ("velvet", "#750851"), ("vermillion", "#f4320c"), ("very dark blue", "#000133"), ("very dark brown", "#1d0200"),
  ("very dark green", "#062e03"), ("very dark purple", "#2a0134"), ("very light blue", "#d5ffff"), ("very light brown", "#d3b683"),
  ("very light green", "#d1ffbd")]

/-- `XKCD_COLORS` (color_data.py:136-1086), part 10. -/
def xkcdColors10 : List (String × String) := [
  ("very light pink", "#fff4f2"), ("very light purple", "#f6cefc"), ("very pale blue", "#d6fffe"), ("very pale green", "#cffdbc"),
  ("vibrant blue", "#0339f8"), ("vibrant green", "#0add08"), ("vibrant purple", "#ad03de"), ("violet blue", "#510ac9"),
  ("violet pink", "#fb5ffc"), ("violet red", "#a50055"), ("violet", "#9a0eea"), ("viridian", "#1e9167"), ("vivid blue", "#152eff"),
  ("vivid green", "#2fef10"), ("vivid purple", "#9900fa"), ("vomit green", "#89a203"), ("vomit yellow", "#c7c10c"),
  ("vomit", "#a2a415"), ("warm blue", "#4b57db"), ("warm brown", "#964e02"), ("warm grey", "#978a84"), ("warm pink", "#fb5581"),
  ("warm purple", "#952e8f"), ("washed out green", "#bcf5a6"), ("water blue", "#0e87cc"), ("watermelon", "#fd4659"),
  ("weird green", "#3ae57f"), ("wheat", "#fbdd7e"), ("white", "#ffffff"), ("windows blue", "#3778bf"), ("wine red", "#7b0323"),
  ("wine", "#80013f"), ("wintergreen", "#20f986"), ("wisteria", "#a87dc2"), ("yellow brown", "#b79400"), ("yellow green", "#c0fb2d"),
  ("yellow ochre", "#cb9d06"), ("yellow orange", "#fcb001"), ("yellow tan", "#ffe36e"), ("yellow", "#ffff14"),
  ("yellow/green", "#c8fd3d"), ("yellowgreen", "#bbf90f"), ("yellowish brown", "#9b7a01"), ("yellowish green", "#b0dd16"),
  ("yellowish orange", "#ffab0f"), ("yellowish tan", "#fcfc81"), ("yellowish", "#faee66"), ("yellowy brown", "#ae8b0c"),
  ("yellowy green", "#bff128")]

/-- `XKCD_COLORS` (color_data.py:136-1086). -/
def xkcdColors : List (String × String) :=
  xkcdColors1 ++ xkcdColors2 ++ xkcdColors3 ++ xkcdColors4 ++ xkcdColors5 ++ xkcdColors6 ++ xkcdColors7 ++ xkcdColors8 ++ xkcdColors9 ++ xkcdColors10

/-- `CSS4_COLORS` (color_data.py:1091-1240), part 1. -/
def cssColors1 : List (String × String) := [
  ("aliceblue", "#F0F8FF"), ("antiquewhite", "#FAEBD7"), ("aqua", "#00FFFF"), ("aquamarine", "#7FFFD4"), ("azure", "#F0FFFF"),
  ("beige", "#F5F5DC"), ("bisque", "#FFE4C4"), ("black", "#000000"), ("blanchedalmond", "#FFEBCD"), ("blue", "#0000FF"),
  ("blueviolet", "#8A2BE2"), ("brown", "#A52A2A"), ("burlywood", "#DEB887"), ("cadetblue", "#5F9EA0"), ("chartreuse", "#7FFF00"),
  ("chocolate", "#D2691E"), ("coral", "#FF7F50"), ("cornflowerblue", "#6495ED"), ("cornsilk", "#FFF8DC"), ("crimson", "#DC143C"),
  ("cyan", "#00FFFF"), ("darkblue", "#00008B"), ("darkcyan", "#008B8B"), ("darkgoldenrod", "#B8860B"), ("darkgray", "#A9A9A9"),
  ("darkgreen", "#006400"), ("darkgrey", "#A9A9A9"), ("darkkhaki", "#BDB76B"), ("darkmagenta", "#8B008B"),
  ("darkolivegreen", "#556B2F"), ("darkorange", "#FF8C00"), ("darkorchid", "#9932CC"), ("darkred", "#8B0000"),
  ("darksalmon", "#E9967A"), ("darkseagreen", "#8FBC8F"), ("darkslateblue", "#483D8B"), ("darkslategray", "#2F4F4F"),
  ("darkslategrey", "#2F4F4F"), ("darkturquoise", "#00CED1"), ("darkviolet", "#9400D3"), ("deeppink", "#FF1493"),
  ("deepskyblue", "#00BFFF"), ("dimgray", "#696969"), ("dimgrey", "#696969"), ("dodgerblue", "#1E90FF"), ("firebrick", "#B22222"),
  ("floralwhite", "#FFFAF0"), ("forestgreen", "#228B22"), ("fuchsia", "#FF00FF"), ("gainsboro", "#DCDCDC"), ("ghostwhite", "#F8F8FF"),
  ("gold", "#FFD700"), ("goldenrod", "#DAA520"), ("gray", "#808080"), ("green", "#008000"), ("greenyellow", "#ADFF2F"),
  ("grey", "#808080"), ("honeydew", "#F0FFF0"), ("hotpink", "#FF69B4"), ("indianred", "#CD5C5C"), ("indigo", "#4B0082"),
  ("ivory", "#FFFFF0"), ("khaki", "#F0E68C"), ("lavender", "#E6E6FA"), ("lavenderblush", "#FFF0F5"), ("lawngreen", "#7CFC00"),
  ("lemonchiffon", "#FFFACD"), ("lightblue", "#ADD8E6"), ("lightcoral", "#F08080"), ("lightcyan", "#E0FFFF"),
  ("lightgoldenrodyellow", "#FAFAD2"), ("lightgray", "#D3D3D3"), ("lightgreen", "#90EE90"), ("lightgrey", "#D3D3D3"),
  ("lightpink", "#FFB6C1"), ("lightsalmon", "#FFA07A"), ("lightseagreen", "#20B2AA"), ("lightskyblue", "#87CEFA"),
  ("lightslategray", "#778899"), ("lightslategrey", "#778899"), ("lightsteelblue", "#B0C4DE"), ("lightyellow", "#FFFFE0"),
  ("lime", "#00FF00"), ("limegreen", "#32CD32"), ("linen", "#FAF0E6"), ("magenta", "#FF00FF"), ("maroon", "#800000"),
  ("mediumaquamarine", "#66CDAA"), ("mediumblue", "#0000CD"), ("mediumorchid", "#BA55D3"), ("mediumpurple", "#9370DB"),
  ("mediumseagreen", "#3CB371"), ("mediumslateblue", "#7B68EE"), ("mediumspringgreen", "#00FA9A"), ("mediumturquoise", "#48D1CC"),
  ("mediumvioletred", "#C71585"), ("midnightblue", "#191970"), ("mintcream", "#F5FFFA"), ("mistyrose", "#FFE4E1"),
  ("moccasin", "#FFE4B5")]

/-- `CSS4_COLORS` (color_data.py:1091-1240), part 2. -/
def cssColors2 : List (String × String) := [
  ("navajowhite", "#FFDEAD"), ("navy", "#000080"), ("oldlace", "#FDF5E6"), ("olive", "#808000"), ("olivedrab", "#6B8E23"),
  ("orange", "#FFA500"), ("orangered", "#FF4500"), ("orchid", "#DA70D6"), ("palegoldenrod", "#EEE8AA"), ("palegreen", "#98FB98"),
  ("paleturquoise", "#AFEEEE"), ("palevioletred", "#DB7093"), ("papayawhip", "#FFEFD5"), ("peachpuff", "#FFDAB9"), ("peru", "#CD853F"),
  ("pink", "#FFC0CB"), ("plum", "#DDA0DD"), ("powderblue", "#B0E0E6"), ("purple", "#800080"), ("rebeccapurple", "#663399"),
  ("red", "#FF0000"), ("rosybrown", "#BC8F8F"), ("royalblue", "#4169E1"), ("saddlebrown", "#8B4513"), ("salmon", "#FA8072"),
  ("sandybrown", "#F4A460"), ("seagreen", "#2E8B57"), ("seashell", "#FFF5EE"), ("sienna", "#A0522D"), ("silver", "#C0C0C0"),
  ("skyblue", "#87CEEB"), ("slateblue", "#6A5ACD"), ("slategray", "#708090"), ("slategrey", "#708090"), ("snow", "#FFFAFA"),
  ("springgreen", "#00FF7F"), ("steelblue", "#4682B4"), ("tan", "#D2B48C"), ("teal", "#008080"), ("thistle", "#D8BFD8"),
  ("tomato", "#FF6347"), ("turquoise", "#40E0D0"), ("violet", "#EE82EE"), ("wheat", "#F5DEB3"), ("white", "#FFFFFF"),
  ("whitesmoke", "#F5F5F5"), ("yellow", "#FFFF00"), ("yellowgreen", "#9ACD32")]

/-- `CSS4_COLORS` (color_data.py:1091-1240). -/
def cssColors : List (String × String) :=
  cssColors1 ++ cssColors2

/-- `QML_COLORS` (color_data.py:1245-1393), part 1. -/
def qmlColors1 : List (String × String) := [
  ("aliceblue", "#f0f8ff"), ("antiquewhite", "#faebd7"), ("aqua", "#00ffff"), ("aquamarine", "#7fffd4"), ("azure", "#f0ffff"),
  ("beige", "#f5f5dc"), ("bisque", "#ffe4c4"), ("black", "#000000"), ("blanchedalmond", "#ffebcd"), ("blue", "#0000ff"),
  ("blueviolet", "#8a2be2"), ("brown", "#a52a2a"), ("burlywood", "#deb887"), ("cadetblue", "#5f9ea0"), ("chartreuse", "#7fff00"),
  ("chocolate", "#d2691e"), ("coral", "#ff7f50"), ("cornflowerblue", "#6495ed"), ("cornsilk", "#fff8dc"), ("crimson", "#dc143c"),
  ("cyan", "#00ffff"), ("darkblue", "#00008b"), ("darkcyan", "#008b8b"), ("darkgoldenrod", "#b8860b"), ("darkgray", "#a9a9a9"),
  ("darkgreen", "#006400"), ("darkgrey", "#a9a9a9"), ("darkkhaki", "#bdb76b"), ("darkmagenta", "#8b008b"),
  ("darkolivegreen", "#556b2f"), ("darkorange", "#ff8c00"), ("darkorchid", "#9932cc"), ("darkred", "#8b0000"),
  ("darksalmon", "#e9967a"), ("darkseagreen", "#8fbc8f"), ("darkslateblue", "#483d8b"), ("darkslategray", "#2f4f4f"),
  ("darkslategrey", "#2f4f4f"), ("darkturquoise", "#00ced1"), ("darkviolet", "#9400d3"), ("deeppink", "#ff1493"),
  ("deepskyblue", "#00bfff"), ("dimgray", "#696969"), ("dimgrey", "#696969"), ("dodgerblue", "#1e90ff"), ("firebrick", "#b22222"),
  ("floralwhite", "#fffaf0"), ("forestgreen", "#228b22"), ("fuchsia", "#ff00ff"), ("gainsboro", "#dcdcdc"), ("ghostwhite", "#f8f8ff"),
  ("gold", "#ffd700"), ("goldenrod", "#daa520"), ("gray", "#808080"), ("green", "#008000"), ("greenyellow", "#adff2f"),
  ("grey", "#808080"), ("honeydew", "#f0fff0"), ("hotpink", "#ff69b4"), ("indianred", "#cd5c5c"), ("indigo", "#4b0082"),
  ("ivory", "#fffff0"), ("khaki", "#f0e68c"), ("lavender", "#e6e6fa"), ("lavenderblush", "#fff0f5"), ("lawngreen", "#7cfc00"),
  ("lemonchiffon", "#fffacd"), ("lightblue", "#add8e6"), ("lightcoral", "#f08080"), ("lightcyan", "#e0ffff"),
  ("lightgoldenrodyellow", "#fafad2"), ("lightgray", "#d3d3d3"), ("lightgreen", "#90ee90"), ("lightgrey", "#d3d3d3"),
  ("lightpink", "#ffb6c1"), ("lightsalmon", "#ffa07a"), ("lightseagreen", "#20b2aa"), ("lightskyblue", "#87cefa"),
  ("lightslategray", "#778899"), ("lightslategrey", "#778899"), ("lightsteelblue", "#b0c4de"), ("lightyellow", "#ffffe0"),
  ("lime", "#00ff00"), ("limegreen", "#32cd32"), ("linen", "#faf0e6"), ("magenta", "#ff00ff"), ("maroon", "#800000"),
  ("mediumaquamarine", "#66cdaa"), ("mediumblue", "#0000cd"), ("mediumorchid", "#ba55d3"), ("mediumpurple", "#9370db"),
  ("mediumseagreen", "#3cb371"), ("mediumslateblue", "#7b68ee"), ("mediumspringgreen", "#00fa9a"), ("mediumturquoise", "#48d1cc"),
  ("mediumvioletred", "#c71585"), ("midnightblue", "#191970"), ("mintcream", "#f5fffa"), ("mistyrose", "#ffe4e1"),
  ("moccasin", "#ffe4b5")]

/-- `QML_COLORS` (color_data.py:1245-1393), part 2. -/
def qmlColors2 : List (String × String) := [
  ("navajowhite", "#ffdead"), ("navy", "#000080"), ("oldlace", "#fdf5e6"), ("olive", "#808000"), ("olivedrab", "#6b8e23"),
  ("orange", "#ffa500"), ("orangered", "#ff4500"), ("orchid", "#da70d6"), ("palegoldenrod", "#eee8aa"), ("palegreen", "#98fb98"),
  ("paleturquoise", "#afeeee"), ("palevioletred", "#db7093"), ("papayawhip", "#ffefd5"), ("peachpuff", "#ffdab9"), ("peru", "#cd853f"),
  ("pink", "#ffc0cb"), ("plum", "#dda0dd"), ("powderblue", "#b0e0e6"), ("purple", "#800080"), ("red", "#ff0000"),
  ("rosybrown", "#bc8f8f"), ("royalblue", "#4169e1"), ("saddlebrown", "#8b4513"), ("salmon", "#fa8072"), ("sandybrown", "#f4a460"),
  ("seagreen", "#2e8b57"), ("seashell", "#fff5ee"), ("sienna", "#a0522d"), ("silver", "#c0c0c0"), ("skyblue", "#87ceeb"),
  ("slateblue", "#6a5acd"), ("slategray", "#708090"), ("slategrey", "#708090"), ("snow", "#fffafa"), ("springgreen", "#00ff7f"),
  ("steelblue", "#4682b4"), ("tan", "#d2b48c"), ("teal", "#008080"), ("thistle", "#d8bfd8"), ("tomato", "#ff6347"),
  ("turquoise", "#40e0d0"), ("violet", "#ee82ee"), ("wheat", "#f5deb3"), ("white", "#ffffff"), ("whitesmoke", "#f5f5f5"),
  ("yellow", "#ffff00"), ("yellowgreen", "#9acd32")]

/-- `QML_COLORS` (color_data.py:1245-1393). -/
def qmlColors : List (String × String) :=
  qmlColors1 ++ qmlColors2

/-- The names of the colours of Valentina (color_data.py:1397-1415). -/
def valentinaNames : List String := [
  "black", "blue", "cornflowerblue", "darkBlue", "darkGreen", "darkRed", "darkviolet", "deeppink", "deepskyblue", "goldenrod", "green", "lightsalmon", "lime", "mediumseagreen", "orange", "violet", "yellow"]

/-- `name.lower()` of an ASCII text. -/
def lower (name : Text) : Text := name.map Char.toLower

/-- A table with texts. -/
def texts (l : List (String × String)) : List (Text × Text) := l.map fun item => (item.1.toList, item.2.toList)

/-- `VALENTINA_COLORS` (color_data.py:1416): the colour of the same name, in lower case, in the table of QML. -/
def valentinaColors : Except PyErr (List (Text × Text)) :=
  valentinaNames.mapM fun name => do return (name.toList, ← Dict.getItem (texts qmlColors) (lower name.toList))

/-- `Colors` after `import Patro.GraphicStyle` (Color/__init__.py:34-58). -/
def colors : Except PyErr DataBase := do
  let valentina ← valentinaColors
  DataBase.load [] ([baseColors, tableauColors, xkcdColors, cssColors, qmlColors].map texts ++ [valentina])

end Patro.Colour
