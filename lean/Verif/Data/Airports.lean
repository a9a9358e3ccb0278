import Mathlib.Data.Nat.Notation

/-! Generated by tools/gen_airports.py from /repo/openap/data/nav/airports.csv:1-13796 (columns
`icao`, `country`, `lat`, `lon`, `alt`). Digits from the left: 4 x 2 for the characters of the code,
2 x 2 for the characters of the country, 8 for (lat + 90) 10^5, 8 for (lon + 180) 10^5, 5 for
alt + 2000. -/

namespace Verif.Data.Airports

/-- Rows 1 to 200. -/
def rows0 : List ℕ := [
  657165708366080808053409468702020,
  657165828366080141813419756802041,
  657165848366081129773410087502024,
  657166848366081434833381190302010,
  657169868366082427113365963502070,
  657171658366081293133406811502005,
  657171668366078699113397953902055,
  657171678071083291303363940202005,
  657171688366080255873398394702080,
  657171708366081890043395768602005,
  657171728366080568013400452302028,
  657171758366079552563418933202020,
  657171768366079277763457915002010,
  657171778366081671883372568402014,
  657171788366081905783368616202013,
  657171798071082574153355567902020,
  657171808366080360723414225102080,
  657171838366081422633378717602005,
  657171848366079153773424506802100,
  657171858366080136413408234002010,
  657171868366082411963387282102007,
  657171898366080911133392133302042,
  657175858366081976023369459702020,
  657182678366081869273371415302020,
  657182778366081836663376369102046,
  657889787882089458773469117002024,
  658965898071083662373259007807100,
  658966758071084572963346675702011,
  658966778071081949143229387802098,
  658967728071083972453249683006900,
  658968858071080907943232127702020,
  658971658071083909753253919307198,
  658971788071079686983303413302066,
  658971828071081189553283043202285,
  658972758071084542703303997602066,
  658975778071082040003257688902010,
  658975808071081109923277310803290,
  658975868071087425003308017902012,
  658975898071086960033326253002178,
  658977688071084789623257815802010,
  658977728071084176943242909007362,
  658977788071083858293236564107680,
  658977798071087946073274213802012,
  658978908071083431133267151702046,
  658980898071080569133272138902146,
  658984698071084865723216326706232,
  658984758071085661763323722602029,
  658986788071087312383212967902010,
  658987688071084361933238908007889,
  658987758071086417933236622302019,
  667165657176158721021272055502074,
  667166877176151154351345630802112,
  667167797383160737781573468502045,
  667171727176154188971283204502283,
  667174787176159241331289316302095,
  667175757176155573041428633602114,
  667177657176155431291270593802091,
  667181816765167491111105935302068,
  667183707176157005611292569302165,
  667183837176156952071262617502033,
  667184766765166530011112384902251,
  667185757176162786551238674102413,
  667185817176160736171272932202289,
  667365697383155903861576316102020,
  667365767383153541141615438602160,
  667365827383155645841619300602005,
  667366657383153552871598476902029,
  667366687383155637541564491202025,
  667366707383155521071661828202080,
  667366737383156133611574243602060,
  667366757383156019481651698802100,
  667366767383155641211597099002130,
  667366827383155072351581917502130,
  667366867383154791321659477702007,
  667368717383154749291562622902130,
  667368867383154645781657204902008,
  667369717383155274691655887302076,
  667369727383154244041596932902359,
  667370707383154932901659318202015,
  667370767383154141841596694102269,
  667370777383153873901633464702056,
  667370907383153847111592811102032,
  667371697383154308411597244402350,
  667371727383153849101597213902196,
  667371747383155991451586681302098,
  667371827383156550411619786702065,
  667371837383155630601638456103275,
  667372697383155187701637954403500,
  667372737383154882981605115003994,
  667372757383155698781583038502089,
  667372767383153831061596208902064,
  667372787383154302271647692102023,
  667372827383153749251597469702100,
  667372837383155755281565290202030,
  667372847383156018231565463602010,
  667372857383155945271625704902047,
  667372867383155269101591488702164,
  667372887383154199861607165003197,
  667372897383155986621616072702000,
  667372907383154699741590996702379,
  667373687383156053101563022602070,
  667373837383156055131568511102007,
  667375657383154784751577381402160,
  667375697383154699921605830104100,
  667375707383153964481573945502170,
  667375747383155475641580718502042,
  667375767383153791711619886802064,
  667375807383156307211635310002020,
  667375827383155723271604303902007,
  667377757383153714361601106702271,
  667377777383155481701618287702036,
  667377787383155522351575804102147,
  667377837383154180101582890902018,
  667378687383154715901619300704625,
  667378707383155129741662417402006,
  667379707383156080251613291202032,
  667380657383155559161560209202011,
  667382697383155450061577809402060,
  667382707383154909081561971402018,
  667382717383156401141640644102039,
  667382757383154121961580638002047,
  667382767383155651441630795803029,
  667382837383155910891575782702009,
  667383657383154834911639414504200,
  667383707383153924681589554402064,
  667383717383154158601640886002030,
  667383727383155401881580638602098,
  667383737383156133761610829202009,
  667383757383153518881604960402129,
  667383767383154003571630539002284,
  667383787383154385351646148702059,
  667383807383154652061614993004049,
  667383827383154629911585038802164,
  667383837383154063301584246102600,
  667383847383155055611572252202041,
  667383867383154113431612100603995,
  667384697383155872411564292802026,
  667384707383155678871559845202115,
  667384727383156250181647208502007,
  667384777383153682201604099902597,
  667384787383156213061646646002063,
  667384797383154348231611452903840,
  667386727383155560891605623402026,
  667386737383153420061611063302098,
  667386777383153425611597129702326,
  667386797383155717381651439602008,
  667580828875132585702010345503789,
  677774786765141818130543112303725,
  678965718583138658000865519203125,
  678965766765140574580530961702001,
  678965778583136478190954866702630,
  678965856765134227041151378502321,
  678965866765140061390829644402760,
  678965876765134649401164942902167,
  678965886765140299170839908402850,
  678965896765141390931239082302108,
  678965906765139076230542181302080,
  678966656765141211360644614006583,
  678966666765158530000901777802056,
  678966676765139130921117804302071,
  678966686765142385830533955502117,
  678966696765149559950715083903044,
  678966706765144304160692461103836,
  678966716765138332781089841702522,
  678966756765154304440839180502059,
  678966766765139955560547216602346,
  678966806765140636380680738204490,
  678966816765148704640814771502902,
  678966826765139907110800340803343,
  678966846765147893750783277903122,
  678966856765143329370759868603220,
  678966876765141113060656197205937,
  678966886765141436641228091402121,
  678967656765143679671229505902040,
  678967666765159112220748463902090,
  678967676765135092221054300002175,
  678967686765139059240561300302093,
  678967696765133283060984819402824,
  678967716765139303350623653803624,
  678967726765137007781145305602108,
  678967766765137992501136566702132,
  678967786765139108610989780602861,
  678967796765157820560648388902074,
  678967806765142110830607094404240,
  678967816765145685350583629804000,
  678967836765153350240892588502016,
  678967846765142077500685494504595,
  678967876765139151940580527802032,
  678967896765160481391114788902087,
  678967906765140340000641241704661,
  678968656765154038610408605503215,
  678968666765151375300409481804647,
  678968676765139464040594817204298,
  678968706765139205331225996702072,
  678968766765148416670499561204600,
  678968776765151972200475632204314,
  678968786765141107220799419502999,
  678968796765138778991076148002372,
  678968816765145741110598063904148,
  678969656765140931240699914304200]

/-- Rows 201 to 400. -/
def rows1 : List ℕ := [
  678969696765134687781000675002770,
  678969716765143307730664047204373,
  678969756765151098860859233502032,
  678969766765136353610974302803087,
  678969776765135838060981405602869,
  678969786765139207930770237803905,
  678969826765146023210923178402042,
  678969836765137495281115122202490,
  678969846765143579020635211505041,
  678969856765169996310941500802256,
  678969866765158303190464947202224,
  678969896765138568051017422303068,
  678970666765153764991114252902110,
  678970676765135862981134490002068,
  678970686765133123890996533302815,
  678970696765138743811108930202293,
  678970746765136401921052182102827,
  678970796765144684820783201702997,
  678970826765151184970663028602526,
  678970836765151767780587562902555,
  678971666765139698720554785202305,
  678971686765133771110982836102712,
  678971696765141304170630152804575,
  678971726765156240840513388802268,
  678971756765134218331033991702305,
  678971766765143628841022821302639,
  678971776765140636110829505502753,
  678971806765138774631155121102108,
  678971816765139776390930505603144,
  678971826765137420581182121002035,
  678971836765145767810553058904800,
  678971846765159369910981730302098,
  678971866765140279171163800002124,
  678971886765146353330852803302476,
  678971906765166428670970841802656,
  678972666765142814900776783403175,
  678972686765139835000872444503354,
  678972696765139366700585083602128,
  678972706765139708890963088902827,
  678972736765160760300621784402117,
  678972756765158639110841363102154,
  678972776765133180561000469402780,
  678972786765139190560952347203099,
  678972826765140465441203554002039,
  678972846765150784570424460204150,
  678972856765135509721065713902090,
  678972896765150847210642038602543,
  678972906765134869011164753902477,
  678973666765138770290883567203408,
  678973686765134541891142091302499,
  678973706765141205431213429102020,
  678973756765152414171020666702126,
  678973796765162678311020261702181,
  678973866765143860070853389602776,
  678974656765142991820619447205350,
  678974706765150231600565269502706,
  678974776765144400280557294504364,
  678974786765135292501067105702136,
  678974806765151321930623924802530,
  678974816765142139400519363002162,
  678974846765138540281214305602080,
  678975656765140704310595428903133,
  678975676765148230080763150803341,
  678975686765158226940449891702023,
  678975706765133456940996094403054,
  678975746765147248870743733703670,
  678975766765144810591131891803709,
  678975796765150816391018425002075,
  678975886765138208251000100203157,
  678975896765141518320708117404277,
  678975906765133864441006266602650,
  678976666765144775280679577803884,
  678976686765137821940966430603470,
  678976746765144124820714663103576,
  678976766765143309170699152804193,
  678976816765137402781072125002548,
  678976826765146517780800152802959,
  678976847176172512781176766702100,
  678976876765139966080606208603409,
  678977656765153616360441167503653,
  678977686765166237040606519002040,
  678977696765138853921125375802102,
  678977716765139080280941344403198,
  678977726765142301951241488902038,
  678977746765140338130744245203892,
  678977766765137601111097688902977,
  678977776765146652500687630503211,
  678977796765141288100993910602030,
  678977846765139764021054655203270,
  678977876765136267991040071602656,
  678977886765135671111059783302270,
  678977896765140718610866080603269,
  678978656765140192961182025702039,
  678978686765135519621044250902211,
  678978696765143955560821486202731,
  678978726765146033610580119504220,
  678978746765139097750573723902034,
  678978766765148283270759138603605,
  678978776765139766461021899102918,
  678979676765157566110401450002824,
  678979686765144418890696952703775,
  678979746765148627500628294403110,
  678979796765133924441010961102459,
  678979806765148493530605805303759,
  678979836765134595560991611103007,
  678979876765135327091043141802374,
  678980656765143218000743151903405,
  678980676765159355980559360902018,
  678980686765135656531186218502377,
  678980696765146223330625422203873,
  678980716765139906670817161102885,
  678980726765148475491019302402078,
  678980756765139214670572775402011,
  678980766765141446510897750803267,
  678980786765139836391157011102167,
  678980816765134228451016251202628,
  678980826765144293340495483502116,
  678980836765140301830572539102670,
  678980848583131780560973158302572,
  678980856765142109600558429304985,
  678980876765139834720554944502425,
  678980886765150043891027169402074,
  678980896765148762780688725002761,
  678980906765144381510540404904343,
  678981656765134984521006911802925,
  678981666765136782221085936102244,
  678981686765143976940788989302887,
  678981706765142193610661069404968,
  678981716765132273340970294402622,
  678981726765150120000511652804255,
  678981736765133817501139025002141,
  678981758583139786610856249403332,
  678981766765139623610671847205047,
  678981776765136106651153050502232,
  678981786765140182220932963903057,
  678981816765139720740550984302083,
  678981826765140439280753291103894,
  678981836765132772020988807702778,
  678981846765138370190906663502653,
  678981856765145186110611020104195,
  678981866765141260660775303903635,
  678981876765142774160717492103799,
  678981886765138920831254316702496,
  678981896765136153741199388102203,
  678981906765143032570574833003789,
  678982656765154119220626832002757,
  678982666765164725540850229102215,
  678982676765138519441089377802543,
  678982736765137757501104083302427,
  678982746765138525561077280602586,
  678982766765141065830861961103265,
  678982776765142435970650889505244,
  678982796765135459171043477802188,
  678982806765135318611039702802382,
  678982816765136345721073143602199,
  678982846765152816550878702302094,
  678982866765140971520618096403459,
  678983656765133410870990600603215,
  678983666765136617500991952703141,
  678983676765135442461082983902792,
  678983696765139778810568411402171,
  678983706765149252360741716202805,
  678983716765136091511092781202893,
  678983726765134942191040538602416,
  678983746765135302531141051602357,
  678983766765137162331121604602793,
  678983776765150027500680275002671,
  678983786765133187921008214002321,
  678983806765138760000936519403035,
  678983818583149588070463383104348,
  678983826765162983580953573304106,
  678983846765143841980851428202773,
  678983856765136431391161572202056,
  678983876765139838790651174105800,
  678983896765161993330547400002282,
  678983906765139122781134636102000,
  678984656765135870831027444502529,
  678984666765151684760693839203540,
  678984696765154233541034651802164,
  678984706765138511111083500002445,
  678984726765145796410821252602729,
  678984786765135607081173718702319,
  678984826765134108891024577802283,
  678984836765138563060986211102967,
  678984906765133627471005966402251,
  678985666765159437220469575002015,
  678985766765135461111062341702117,
  678985846765156525780937714802080,
  678985886765158779890987403202027,
  678985896765138201051011511402988,
  678986666765138074541145286802123,
  678986676765145158140747398903242,
  678986716765143358060691702804025,
  678986756765140246530606626703140,
  678986776765157541951159619402021,
  678986796765138066751022134803107,
  678986806765148084451115619402129,
  678986816765155285560531846102238,
  678986826765139190110567920502014,
  678986846765145846230715764303444]

/-- Rows 401 to 600. -/
def rows2 : List ℕ := [
  678986866765134739170988827702729,
  678987656765135956391026769402427,
  678987716765139925280827658302783,
  678987746765155212160565490902695,
  678987756765142915001131398303808,
  678987766765142189170579355505085,
  678987776765144748610667963903971,
  678987796765155746980687448303608,
  678987866765142798890691380504230,
  678987896765153212610565553702489,
  678988676765139623080642177005084,
  678988686765143577780664716704200,
  678988696765142178520732819103653,
  678988726765140014030692719304352,
  678988746765146245000592466704280,
  678988756765138473891114961102082,
  678988766765140120570880892703258,
  678988786765152245250873958802026,
  678988806765156143001142782202073,
  678988816765152411070391293804129,
  678988826765137693921001420402798,
  678988836765143900280573294404267,
  678988846765144478710514095802712,
  678988856765133042110988402002912,
  678988886765139019110576200302189,
  678988896765150721670449233304317,
  678988906765137961110952097202942,
  678989666765136357321005577203215,
  678989676765141131510659779205557,
  678989686765144831570528155603712,
  678989696765148830830573841603253,
  678989706765139469440603991703129,
  678989716765136280031168724802160,
  678989726765159550950864164802092,
  678989746765138651040565602802063,
  678989766765146870560789300003170,
  678989776765139638860659027805876,
  678989786765140296680723047604680,
  678989796765141809720758244503740,
  678989816765148745660859222902094,
  678989826765143303891195519402160,
  678989846765137625541272465402461,
  678989856765139420830975277802743,
  678989876765140299140910750303058,
  678989896765138603611117836102172,
  678989906765133660731003760602568,
  678990686765133749721005258302652,
  678990696765135886110974227802635,
  678990706765152473170655560002675,
  678990716765152184531043341002705,
  678990726765145296480652095903912,
  678990806765143260020481794202020,
  678990826765133004440976847202594,
  678990836765154199530966339302210,
  678990846765140686110526269402071,
  678990856765144148440642022504567,
  678990866765140217221137208302180,
  678990876765150174690472440404313,
  678990886765134983591150682802085,
  678990896765145311110568691604264,
  679065656765145478160505150402000,
  679065676765146090780839016802623,
  679065776765140688190607679403751,
  679066656765133445001001452802602,
  679066666765139078200569807002005,
  679066686765146051520843683802646,
  679066706765137628781142519902193,
  679066776765135285481072521202375,
  679069696765146039540834854902620,
  679070656765152209720466133304351,
  679070686765149335700728073402814,
  679070776765157411390451319402116,
  679070786765154909110544177502332,
  679071706765139015280615608403720,
  679072806765145393480635152703974,
  679074786765142115810787596503100,
  679077766765141743020586630605127,
  679077848583144030420478756002025,
  679078766765139491940626938903755,
  679080676765139520560659888905903,
  679080796765145532070734166903270,
  679083786765146798260810940402918,
  679083846765145940560500183302024,
  679084776765145869300879200002272,
  679085676765139425170882737003435,
  679085776765143564521158818203442,
  679086766765143665500661522804255,
  679087726765148619000785371403210,
  679087766765148112130768267403360,
  686565666890126501391828033102535,
  686565686890125325081841984303506,
  686565696890126710001850566702020,
  686565716890126693921832201702082,
  686565747689114293061894519405176,
  686565756890126533811828625602335,
  686565786890116706421802737502955,
  686565806890116723641886074603778,
  686565816890125526911828608004132,
  686565836890126177901853137705360,
  686565846890112796391854443906518,
  686565866890126805831858715002036,
  686565896890123523911797401105855,
  686565906890125749941806196702282,
  686566666890126818311878087002016,
  686566676890126288061866105604265,
  686566836890125438461881068204661,
  686566846890125744341862950204697,
  686570726890122927891832958004540,
  686579666890125339091814468605245,
  686579696890125731361791805802187,
  686579706890117698391718177903453,
  686579736890126209691813233702463,
  686579766890125539381794530402367,
  686579786890125009351785294102814,
  686579796890125618521793632802295,
  686579826890121637701777044604661,
  686579836890125172671793986503614,
  686579866890125206391801379603686,
  686585656890117827221798038902919,
  686585666890124801651857261502289,
  686585696890120599441828613903306,
  686585716890122383921837944703512,
  686585726890121686501861416302463,
  686585736890117242511825002802896,
  686585756890123060001860872202279,
  686585766890123780531829213604510,
  686585796890123527501867619402203,
  686585846890119229171802630603027,
  686585856890121930131854164602492,
  686585906890118045071896351103847,
  686666666674096350711823756802019,
  686666806674099351111826047403266,
  687067676670103562221775690303105,
  687070686670102341681784797503037,
  687079796670101151121756570903511,
  687165657172095588381798266302204,
  687176697172099566431791457902553,
  687176787172100947981789076502680,
  687176877172100091031774952603060,
  687176897172099429261799990602736,
  687183737172096703791784069402942,
  687183787172097359481776660703014,
  687184757172094889121782213402020,
  687365806773095248851760685502021,
  687366756773097725201749202003230,
  687368766773096784811735225702823,
  687375796773099385531744339203214,
  687377786773097263661724087903089,
  687383806773094738641733363002026,
  687389796773096893021746252502699,
  687865657871098993441872537403123,
  687865757871097235231852957903100,
  687866697871096309011855912402258,
  687867657871094966171883422902210,
  687869787871096472191875509102466,
  687871857871102167141866912103520,
  687873667871097354131839713302725,
  687873767871098430971844833103126,
  687873777871095439061872033002373,
  687874797871099641061888554706232,
  687875657871100687101873096804073,
  687875787871102041621885066503562,
  687877657871101845941930712603099,
  687877757871097695541886033002371,
  687877777871096587781833135602135,
  687877787871099641541864513402834,
  687880797871095003501869431302087,
  687883797871102912771851934403010,
  687889797871099271051924281902599,
  687890657871101125351876799104170,
  688282777869103501651871182403240,
  688282787869103480901821697402732,
  688282847869104870771852567903266,
  688290657869106960921879870603657,
  688290687869108963261928635903273,
  688290707869103372691926183802994,
  688290827869103774051889769803516,
  688475658478126980851888590602230,
  688477668478125754111907384402009,
  688478728478126075811904202902021,
  688484658478126839131902237602022,
  688484668478127240331897698502020,
  688484688478122296251903772103004,
  688484708478124413451888106703060,
  688484718478123874441900980102026,
  688484738478126724151899384202108,
  688484748478123875031907603402018,
  688484828478121708911892414502827,
  688484888478124729041906821302085,
  688484908478123939631880836802287,
  688878718471099755981810864003515,
  688888888471096155131812456902072,
  696665776669140740491834817202049,
  696665866669140706461850681402393,
  696665876669141192381844527602039,
  696666696669140748951847558302341,
  696666766669141159611854530702200,
  696666826669140898871844556402184,
  696666846669141344961845016502076,
  696666886669139881611852146103514]

/-- Rows 601 to 800. -/
def rows3 : List ℕ := [
  696666896669140566711844347002541,
  696666906669140544171843808802475,
  696667706669140155051843820202954,
  696667736669140455201844367202614,
  696667866669140574321838177202201,
  696670786669141093981826347902020,
  696670836669140240841846254602900,
  696671666669140945881843909802068,
  696671716669140752791838627802066,
  696672786669141308501843848102032,
  696675726669141179201852133202131,
  696675846669140814771831970702064,
  696676696669141116761852968702207,
  696676716669140627081854279502645,
  696676786669140579051847899902560,
  696677796669140851101831436902066,
  696678776669140487971847655502594,
  696679836669141196571828526602013,
  696679846669141314901850133002075,
  696683706669140998431850556702100,
  696683716669140457831838160202075,
  696683726669140040251854020103847,
  696683766669140940731855722602312,
  696683806669140480191859059403542,
  696683856669140030251854245403930,
  696684786669140768461849568102247,
  696684886669140551071858510803099,
  696684897082140532451834918102161,
  696685766669141139861834583902095,
  696687696669141389841849403202105,
  696690726669140970041853701502141,
  696690826669141256021847378602173,
  696690876669141010581855190302289,
  696865666869141190641945046502549,
  696865676869140974371924962202640,
  696865686869141831911921767602187,
  696865696869142199471945778502149,
  696865726869143881631941345002093,
  696865736869142823091925465302142,
  696865746869140879181921325203015,
  696865756869141312581935396902417,
  696865766869142392631940907702184,
  696865776869141362161919327602340,
  696865786869143361971916041802115,
  696865806869141684771944160502279,
  696865816869141554401920466202347,
  696865826869140981561939027202400,
  696865836869141635331936675102384,
  696865856869141297951933419502321,
  696865866869142829121936750902121,
  696865876869141577841924858402289,
  696865886869143303641927358502220,
  696865896869142576451939089802263,
  696865906869142201701931496502131,
  696866676869141853481914002902596,
  696866686869143356891937769502164,
  696866706869142793291927611102138,
  696866726869144338171927008802023,
  696866746869140910081917115203228,
  696866756869142922311924206202130,
  696866766869141246241916883802737,
  696866776869142073521916192002267,
  696866796869141899131930516302287,
  696866806869143612391915616302144,
  696866816869141667051939517002423,
  696866826869141374401949497902517,
  696866836869141197681911859302451,
  696866846869141376851914290202932,
  696866856869143175151921809102289,
  696866866869144333201930379702049,
  696866876869142631331937645302263,
  696866896869143976491933402102105,
  696866906869141491721938749402331,
  696867656869143833171936615802018,
  696867666869141743161912237602533,
  696867686869141885461945151602274,
  696867696869142473811940681102220,
  696867716869144383601933186202000,
  696867746869140745811928314203202,
  696867756869141721261919417702304,
  696867776869141292111941247902495,
  696867786869142628181929070902110,
  696867796869141269861906250502909,
  696867806869144165731937601602007,
  696867816869141768381914910102524,
  696867836869142309451930945402160,
  696867846869141393751925329702492,
  696867876869143912571914947502027,
  696867886869144160821922433602000,
  696867896869141571561941306202375,
  696868666869142367691934850302157,
  696868676869141124661937547402752,
  696868696869140981481909397503035,
  696868706869140032621885346302355,
  696868716869142131311876692602159,
  696868726869143618231899637102053,
  696868756869140880471871290802302,
  696868766869141279611867519902146,
  696868776869138362761917675503487,
  696868786869139500551910591803045,
  696868806869141431241922158302464,
  696868826869139214171870964303057,
  696868836869138685741892001203273,
  696868846869142557641932657602122,
  696868866869142454821896770202183,
  696868876869143046441887700602014,
  696869786869140841401897067002932,
  696869826869140497521899495304999,
  696870656869140286371885292803067,
  696870666869140344651888785202395,
  696870676869139938141890567102410,
  696870686869140307491901197402997,
  696870696869139960371886311002387,
  696870716869140195821891611302423,
  696870726869139931391872468803649,
  696870766869140543361885867002754,
  696870776869139472991885061002309,
  696870786869140871461888104702833,
  696870796869139677671889692003143,
  696870806869140359731887068102828,
  696870816869141037611886727003164,
  696870826869139387491902157303309,
  696870846869140682121894058003210,
  696870856869139693781891792803501,
  696870866869139605231883617602295,
  696870876869139818991898929602986,
  696870906869139967731881417302760,
  696871666869140678321881666303833,
  696871696869140994171904644403101,
  696871706869140474971894381303558,
  696871736869139320371896530003375,
  696871776869139403571891197403083,
  696871806869139838291883719702279,
  696871836869140712761880726803966,
  696872666869144244431910199002006,
  696872676869143019111911431402050,
  696872696869143646891896948602022,
  696872706869143992491895767902052,
  696872716869143247041904516202161,
  696872736869143528561898214902021,
  696872756869144378711901355302101,
  696872766869143802051907018902053,
  696872776869143913621900374802108,
  696872786869144078091899360402072,
  696872796869143700571897398402033,
  696872806869144537281886756802010,
  696872836869143560401894933202062,
  696872856869143208751895691302098,
  696872876869143970911902159902128,
  696874656869137981651902225704077,
  696875656869140822631861827802623,
  696875666869140770121871574902197,
  696875766869141018671870031802154,
  696875776869141299561882354303425,
  696875796869141404281886449502460,
  696875866869140403391865216703896,
  696875906869141098801875951703548,
  696876656869141480951878929202794,
  696876666869141778111872820502158,
  696876686869141616621868583302217,
  696876696869141400121869290802424,
  696876726869141689061878146402190,
  696876736869141966821885362802454,
  696876756869141384761865864802125,
  696876776869141647451871587202241,
  696876786869141233721864977902125,
  696876796869141931151886723102170,
  696876806869141608881886030902699,
  696876836869141997171868335902157,
  696876846869141944881877688302177,
  696876867876141602841861245402106,
  696876876869141514691876019002425,
  696876906869141587981882117602394,
  696877656869138423391909235503515,
  696877666869138107051897577403903,
  696877696869138395741927137703342,
  696877746869138173781911227303860,
  696877756869137691271903328104340,
  696877766869138509451920270203501,
  696877786869138113491905209903857,
  696877796869138074041912730603947,
  696877836869138901561925068303054,
  696877846869138009971900931703898,
  696877866869138637861931891102991,
  696877876869138830161928754603029,
  696878666869139127021929843003716,
  696878696869138338421899130203558,
  696878706869138825661933684203417,
  696878716869138637611902148503695,
  696878766869137856521900089204099,
  696878776869139220051922957103161,
  696878796869138871021905031203378,
  696878866869137944831922017903535,
  696878896869137668301894992803367,
  696879676869142528231913485802230,
  696879686869141903051931874102335,
  696879696869141213661923635002429,
  696879706869141372341911386202767,
  696879716869141570541930464602269,
  696879736869142662241927423802102]

/-- Rows 801 to 1000. -/
def rows4 : List ℕ := [
  696879766869142041261911987102340,
  696879776869141947671917665502170,
  696879786869142611501942251302035,
  696879806869143421321917630102166,
  696879816869141295411930730102501,
  696879866869142627811918053502184,
  696879886869141592921922298502308,
  696879906869141995101917866702166,
  696880656869138777241902583303916,
  696880746869138496021896376304434,
  696880816869139431961920951803247,
  696880836869138679471936932104673,
  696880856869138750521900031004092,
  696881676869140265051909903703485,
  696881686869139982481916339103601,
  696881696869139793421911256403674,
  696881726869139581791908727903069,
  696881756869140134891914535703660,
  696881776869140288271918437003960,
  696881786869139588021905735203198,
  696881806869139863231917824503496,
  696881846869140020041905223902718,
  696881876869139680881921141103330,
  696882656869140559081871332502672,
  696882666869139937061865467703223,
  696882706869139472391881922902351,
  696882726869139609311871815003093,
  696882746869139311501866686903120,
  696882756869140322421875208302640,
  696882806869139263061874868603247,
  696882846869139860141867820802665,
  696882876869140566661875608402951,
  696882896869139308111884490302312,
  696883666869138767831880699402408,
  696883726869138920451894520402963,
  696883766869137842341885584504300,
  696883786869137976891888968104648,
  696883806869138545231889461303315,
  696883906869138186141887178204444,
  696884686869137979861885219604231,
  696884706869138027891878296902799,
  696884716869137898401876080902695,
  696884726869138801281899226303423,
  696884756869138976001883278502380,
  696884766869138357371878181302511,
  696884776869138052411893623103820,
  696884796869138443971879215702509,
  696884816869138864891892202402914,
  696884836869138063661885683204169,
  696884856869138030621895047703907,
  696884876869138282081884262704202,
  696884896869139119411897732103311,
  696885666869142436471924476702103,
  696885706869141547001932205202284,
  696885796869141545361915917002738,
  696885836869141607411937293402399,
  696885846869143028831935088002202,
  696885876869143931981932161102023,
  696886656869141851751900253702525,
  696886676869142686481901032902207,
  696886696869142318421905421002295,
  696886726869142761941896085302079,
  696886736869141806051893839602561,
  696886756869141402261893690802908,
  696886776869142178141899371502293,
  696886786869141705511900441102530,
  696886806869142398621902437702265,
  696886826869142176361890495202220,
  696886836869142153141904221502328,
  696886856869142982921904608602246,
  696886876869141968031892903403177,
  696886896869142222721888582202160,
  696887656869144625311889272602003,
  696887666869143512251885703102010,
  696887676869142488371881799102151,
  696887696869143389391872172802002,
  696887706869143270581874335102003,
  696887716869143783651879163902006,
  696887726869143066911883075002026,
  696887736869143497721880482902016,
  696887746869143681471870534502008,
  696887756869143335541890241502020,
  696887766869143741071874945002007,
  696887776869143057481892083602059,
  696887786869142455401871794902087,
  696887796869142285331879727802287,
  696887816869143036911884999402096,
  696887826869143594991867098202003,
  696887836869143637761871883902003,
  696887856869142908231880356302128,
  696887866869142968141892823602144,
  696887886869143287611879267802030,
  696887896869143706611872210302006,
  696887906869143725401873694902006,
  696888656869142377041879115302177,
  696888666869144154331888964002007,
  696888676869144425271895359202054,
  696888686869142351551883265602148,
  696888696869142277041874848602131,
  696888706869144773441893698102130,
  696888716869142200891883721402236,
  696888726869144185741879133102007,
  696888736869142709331891562102082,
  696888746869144504571891319602062,
  696888756869144792631889570602024,
  696888766869143166031877897502010,
  696888776869143977571891381302124,
  696888786869143766641886379402072,
  696888796869144308021886819202005,
  696888806869143706721878175302007,
  696888816869143125691893426102097,
  696888826869144217381895966202023,
  696888836869143334361892569602072,
  696888846869144068861907440402080,
  696888856869143286311889462602010,
  696888876869144919351883328802051,
  696888896869144684261885310702025,
  696888906869143569441887854502026,
  696969736969149257322041919202065,
  696975656969148996542028237402018,
  696975696969148236702025094002014,
  696980856969148409712044605502047,
  696984786969149413322048058102131,
  696984856969148307292066786702219,
  697065657073157605862039697302738,
  697065727073154896802057484502095,
  697065767073152553812035696902407,
  697069847073158355212034105003005,
  697069857073151118062021930302259,
  697070797073150799152036445202325,
  697071697073150086132025174502046,
  697072657073151855262047619602479,
  697072707073150260542050441402057,
  697072737073152259062043355702531,
  697072757073150311292049363702179,
  697072767073154965622047038802007,
  697072777073151688522030654402449,
  697072787073149842262030780102020,
  697072807073154114532055009302315,
  697072867073150651482048750502430,
  697073737073153634622071244402384,
  697073757073150467352036520102381,
  697073777073151249862088896902338,
  697073847073152159762100688602364,
  697073867073158599632073828902481,
  697074777073151778302027115102505,
  697074797073152664592095976602398,
  697074807879158711742057527003575,
  697074897073152407552056601402459,
  697075657073153139172030500002151,
  697075697073155793022045860102061,
  697075716588150249242008053802007,
  697075727073154113812094343202571,
  697075737073154283452076670402483,
  697075747073152461722023809702407,
  697075757073153707852031381602083,
  697075777073156719312071551602692,
  697075797073154225692038160102043,
  697075827073153988902057400202348,
  697075837073155994812092197402866,
  697075847073157711902048397602644,
  697075857073153018082077876402323,
  697075867073153126802050875102502,
  697075897073150576932068948802230,
  697076657073151142182056835002502,
  697076767073153397762074810302328,
  697076787073153514022096209402374,
  697076807073151040122081231402349,
  697077656588150114361998913702017,
  697077697073152942962035103202331,
  697077737073151689682071868502329,
  697077777073152027612046581802350,
  697077787073150570822055095502135,
  697077807879158661222057056803526,
  697078857073150326362042823302367,
  697079807073150879342027425202331,
  697079857073154935842053318902047,
  697080727073152467232100383002318,
  697080737073151250582021918302148,
  697080757073152255922070033402390,
  697080787073151730922093949102253,
  697080797073151468112017813402044,
  697080857073155402222069469402397,
  697080897073153731922059263102528,
  697082657073153429482081275002476,
  697082727073154689402046858402118,
  697082787073152069662083580602292,
  697082797073156554102058099902632,
  697082857073155975622063647802541,
  697082867073153708572066157402515,
  697082897073150746922041090102407,
  697083657073151949082089273402311,
  697083697073151066992067888902417,
  697083737073152697112028218902301,
  697083747073153820752077641002603,
  697083797073157401542066147102602,
  697083857073154819092087074202541,
  697084797073150078902041720602015,
  697084807073151408922035815902390,
  697084837073151770062040180102515]

/-- Rows 1001 to 1200. -/
def rows5 : List ℕ := [
  697084857073150513112022401502161,
  697085847073150894532069203302339,
  697086657073153062062017544902019,
  697086737073153123422058184102361,
  697086767073154501702067552402455,
  697086827073152180352078541002286,
  697086847073153395482040254202415,
  697086857073158089402071281002853,
  697087667073150662532067445902082,
  697089767073154060552047159502252,
  697165657166144652261737647602268,
  697165667166144403331723416702155,
  697165677166144611361741192802015,
  697165687166144576811743035902009,
  697165697166145040401728249502022,
  697165767166144615431736892502082,
  697166667166142465581782389302327,
  697166687166142862331783817102175,
  697166697166142364891785116002267,
  697166707166142231881795474502154,
  697166717166142607761789659702469,
  697166747166141893421778226602101,
  697166757166142301001792038102429,
  697166767166142135921782406102157,
  697166777166142812571782268502450,
  697166787166142920611789142202138,
  697166797166142522061777370202283,
  697166807166141666581779289202433,
  697166837166142241071771112902318,
  697166847166142040711788987502448,
  697166877166142196301783851502159,
  697167667166143471221776055902073,
  697167677166143345141777072302257,
  697167687166143333881778350602295,
  697167707166143556861791368802011,
  697167717166143310141801669902045,
  697167747166143785091787762002026,
  697167757166143099561756578302013,
  697167767166142742291799702102008,
  697167787166143462931789892702055,
  697167797166143640671769704502006,
  697167807166143624641790716402003,
  697167827166143166031774234602150,
  697167837166143380951793085502058,
  697167847166142934181773503302301,
  697167867166142831511772243102275,
  697167877166142624871768424002233,
  697168657166141870411748739602355,
  697168677166141087171758366002026,
  697168687166141920601788660802266,
  697168747166141284011782132402544,
  697168767166141502181779890402513,
  697168777166141144141782314502407,
  697168787166141249781782370702455,
  697168797166139996191747592802295,
  697168827166140088591747341502267,
  697168867166141525831778569702328,
  697168877166140962371770479202145,
  697168887166141402811765540002163,
  697168897166141007031773382802075,
  697169677166145441111742906002044,
  697169687166149189431772237502020,
  697169707166149533611783678502223,
  697169727166150374491790717202100,
  697169787166149367731775617302040,
  697169797166146458041745991302020,
  697169807166149349241770978702091,
  697169827166149153001773567902039,
  697169837166149248241774234802066,
  697169847166150188781787549202043,
  697169877166149349771770455402029,
  697169897166146057941737529502039,
  697170657166142115171754406602428,
  697170697166141827391750337002159,
  697170707166141401411766414502220,
  697170727166141599801759257102299,
  697170807166141710911756846602015,
  697171687166141382091772665002622,
  697171807166143332851771331502080,
  697171877166141872021796164502526,
  697172657166140966491778407902810,
  697172667166141335631811544202110,
  697172677166140106151743274202401,
  697172687166140425611758872302475,
  697172697166139915321737055102116,
  697172707166140811181787860802032,
  697172717166140940241773316602207,
  697172727166140777471781418702038,
  697172737166140942951786391202044,
  697172747166140679811788852102055,
  697172767166141186881789564702618,
  697172787166140650221788133902060,
  697172797166141209251783957102330,
  697172807166141192411787580102550,
  697172817166140447041749879902389,
  697172827166140863771792347602100,
  697172837166140983611776379802184,
  697172857166140927521760067202655,
  697172897166140280411748544002400,
  697174657082139705991777791502291,
  697174667171139434681773880202336,
  697174747469139206991777930702277,
  697175657166140831341797000602007,
  697175667166141323611800268602598,
  697175677166140799201793382202003,
  697175697166141206201808256002600,
  697175727166141157631806364402072,
  697175757166141145111797876902196,
  697175767166140880641801532302060,
  697175787166141301861799037402566,
  697175827166141212521798551402198,
  697176657166140501431753307902625,
  697176667166141348831795296102050,
  697176677166141505571800443402019,
  697176687166141586641794821902249,
  697176707166141270561792079702238,
  697176717166141803471798356602249,
  697176747166141682091789226102239,
  697176757166141322121791433402325,
  697176767166141477471795103702083,
  697176777166141498641792183402130,
  697176807166141382531788251702210,
  697176837166141096901782114502285,
  697176847166141421411793399802220,
  697177657166142075861800560102124,
  697177677166141567241806862402049,
  697177687166140950491809333602013,
  697177707166141331301805978102420,
  697177727166141344551813268302178,
  697177747166142167041798421602250,
  697177767166141532231802411602052,
  697177847166141536521803635602020,
  697178657166143012261787788902281,
  697178667166143723361794262102012,
  697178677166144933301771786902190,
  697178687166143619911781650502825,
  697178697166143273371790430002091,
  697178707166143315761788010302250,
  697178717166144209651787033402160,
  697178727166143772241769573102034,
  697178737166143173191803194902010,
  697178747166143565331796429402121,
  697178767166144124001767324202173,
  697178777166143873511783277102681,
  697178797166143741441770988302055,
  697178827166143171221770123302045,
  697178837377144081631753629202052,
  697178847166145033531782936302266,
  697178857166143977251791323802086,
  697178867166144502231785575402120,
  697178877166143313931796488002084,
  697178887166142830611786504002306,
  697178897166143899991796331802004,
  697179687166142815241758697102019,
  697179697166142870591774639202272,
  697179817166143253371756184002193,
  697179837166142801851773320202249,
  697179867166143253881754534402037,
  697179877166143575311769361202037,
  697179897166144847041750397402057,
  697180657166148957721770868502051,
  697180667166149880721786928402020,
  697180677166148463681768945502126,
  697180687166147209571777965702215,
  697180697166147536981759404702031,
  697180707166145863481755509402026,
  697180717166145973551760183002370,
  697180727166145944001766098502135,
  697180737166145686991737297402054,
  697180747166146181791767748502398,
  697180757166145487001754115402065,
  697180767166147476421726247502019,
  697180777166150429191786937502081,
  697180787166146452461769628202017,
  697180797166148224331736672802026,
  697180827166147025331725529202003,
  697180847166146437751766228102397,
  697180857166146494711731221302038,
  697180877166150747951791406102062,
  697181757166147645961764211802022,
  697181767166146373041771182802038,
  697181837166147697971766465802041,
  697183657166142625731809259402210,
  697183667166142140711795935602070,
  697183677166142199341801640602047,
  697183687166142634771817179102001,
  697183697166142025851811865502128,
  697183707166142467741797560702026,
  697183717166141648741801510102185,
  697183727166142675831812690502117,
  697183747166142509121814121102130,
  697183757166142562711811749102161,
  697183767166141894651804448402286,
  697183777166142435341816197602080,
  697183787166142213441799552802225,
  697183797166142173131811064202201,
  697183807166142558541796109202129,
  697183817166141787721811300602037,
  697183827166141911851806756502227,
  697183837166141875031802198602348]

/-- Rows 1201 to 1400. -/
def rows6 : List ℕ := [
  697183847166142072831809731002226,
  697183857166142087071801225402125,
  697183867166142501191810530602193,
  697183877166142237901803462102100,
  697183887166141713871801507602321,
  697183897166143394701786024402231,
  697184657166141772871790563602289,
  697184667166141610211791871102520,
  697184677166142065251793764202358,
  697184687166141113891794517002170,
  697184697166140732071765719902102,
  697184707166141346081794363402080,
  697184717166141519371773920702225,
  697184727166142082251796780202110,
  697184757166141830071786779502270,
  697184787166141932401785776102550,
  697184797166141355931805003602425,
  697184807166140328871748146602330,
  697184827166141655301796695202332,
  697184857166140856701767607002838,
  697184877166141635371779909502250,
  697185667166141606921789023502226,
  697185687166141696261786823502229,
  697185767166142402461805443902032,
  697185787166142365471804618802033,
  697185797166141437621777089502593,
  697185877166142119741809423202284,
  697185897166142355401798704602135,
  697186657166141683001781880002286,
  697186787166141746071783957902289,
  697186797166141234561790441202405,
  697186807166141145731784239202296,
  697187677166142637811776876102272,
  697187697166142014401796955102170,
  697187787166141787171792605902370,
  697187857166141550061795689802124,
  697188677166143089341798144402025,
  697188687166144144141785730802117,
  697188697166144301971784572902132,
  697188717166143829801787933902029,
  697188727166142340951807531102174,
  697188747166142726521793378702461,
  697188807166143298681794356502202,
  697188847166142609501795045002273,
  697188857166144042381787395802053,
  697188877166143154661794685202231,
  697188897166143019281790755202228,
  697188907166144197741786129402092,
  697189677166142746491813476002064,
  697189687166143028731794942602218,
  697189697166142958551794281602367,
  697189747166143941781788293002065,
  697189777166142641211805335102075,
  697189807075038182301215248602244,
  697265767876143453451856726502011,
  697265777876142316621847463001989,
  697266687876141251521855976502114,
  697266757876140901841857600502375,
  697266887876142484601846080802010,
  697268767876142047031858655202158,
  697268807876141522061858741402096,
  697268827876143117261861222702014,
  697268837876142465041863313002016,
  697268867876142671091859333202001,
  697269727876141439091853621402074,
  697271717876143111081865609002017,
  697271827876141569541849119802049,
  697272797876142730781865161102042,
  697272837876141683341837025502025,
  697272867876142191001851406802003,
  697275687876142918731847753402003,
  697276697876142451161855110101961,
  697276867876142333281845315602134,
  697276877876143219171857380902004,
  697277687876141775351858776602115,
  697277907876141512441837398002006,
  697278807876142730241857406601992,
  697278827876141684631855418902025,
  697279877876143199671870268802002,
  697282687876141952091844282401985,
  697283667876142127481852539502066,
  697283697876141553401845476402030,
  697284697876142242471860416402017,
  697284767876142071651859610102264,
  697284877876142268181868712302114,
  697284887876143111781848270402002,
  697286757876141649971856892802072,
  697287797876141445171843256702063,
  697365667369143591861723469002189,
  697366787369141668501705126302006,
  697366827369143070911721014102250,
  697366847369144225901699572202149,
  697367657369143228661705291802069,
  697367687369143539881699136202065,
  697367757369141850081715038502502,
  697367767369143249211728703102149,
  697367777369143298781710494702081,
  697367787369142666401713150602017,
  697367837369143782811721596002149,
  697368767369145037891716549202029,
  697368877369143422431737099302242,
  697371787369143185831733626402490,
  697372787369142857051734578402609,
  697373667369143617041697883802032,
  697373777369143108561703435802029,
  697373827369143059881704902502040,
  697375727369143064851731393402303,
  697375757369142649941726960002299,
  697375767369142650001726903502300,
  697375787369143908301711643802665,
  697375897369142177991704623702111,
  697376847369144949511723232102020,
  697377697369143304691735311802319,
  697377727369143638151731184202229,
  697377787369143095081704288502015,
  697377897369142700811722935002399,
  697378677369143077861739629902000,
  697378787369142693171710564802046,
  697380847369143179751737992702426,
  697382847369142108561710031402280,
  697383717369144281151713920502011,
  697383807369142844771705836402017,
  697384777369143574391732575602200,
  697384847369143541461734641102384,
  697387707369142181171729093302119,
  697387847369143350261735050002154,
  697565696875144855651904532702000,
  697565726875146307431905978002082,
  697565766875145875581923109502128,
  697565846875146696111915536102023,
  697565866875145085861917509002002,
  697566736875145739791891348302247,
  697567726875145603101926330402017,
  697569666875145523851885334102097,
  697569766875145757891902441102006,
  697570826875145896991922436902059,
  697570856875146826011889827002011,
  697571726875145942471923737902097,
  697571826875146438631909291902033,
  697572696875145985191922105602052,
  697572716875146184981890360002167,
  697572756875145734421916005502016,
  697572796875146395291884345702049,
  697572836875146756111902233302007,
  697572866875145302421895159302081,
  697575656875146299081890776202170,
  697575766875145699911912445002000,
  697575796875145338691912367202040,
  697576836875147275481909931102025,
  697576866875146502471883056202100,
  697577666875144700071914291802016,
  697577786875144965591921859502000,
  697578776875146825331887808602051,
  697579686875145471491903152902056,
  697580666875144866931892730402088,
  697582656875145778561899356802130,
  697582686875146505561900291702153,
  697582756875145590001921155602146,
  697582786875145066881947452102052,
  697582826875145209301948768202333,
  697582836875145424041918028602112,
  697583656875147347111904040502115,
  697583666875144968951897848902024,
  697583686875146104941885105002245,
  697583786875147503171902193902092,
  697583806875145224601892439402141,
  697583836875145890641906082002000,
  697583846875145017871905564102016,
  697583866875146554301891666502074,
  697584686875144931371888342002006,
  697584836875147070061886922402023,
  697586656875145698651891697502241,
  697586666875146410681894059602080,
  697586686875145431131893280502143,
  697586717079152066211727123902280,
  697586726875146848621894491302119,
  697586746875145990401883423002017,
  697589846875147093711898333802010,
  697676887685139617641861874003158,
  697865767879152555931860898402069,
  697865787879159309091961164602043,
  697865838374168929501918552702050,
  697865847879159982422033409902009,
  697866747879164507901990037002052,
  697866767879151390631857527903046,
  697866777879150638541864923802298,
  697866787879155454061922036902025,
  697866797879157265291943183102042,
  697866827879150306621852137002165,
  697866837879160596012096881102490,
  697866867879160870442090219102042,
  697867787879148196701880754102057,
  697868737879150414971884982404618,
  697868857879159059521985098402252,
  697869717879150213761903183602650,
  697869787879157968611949990602009,
  697869867879158503911966766702084,
  697870657879153697841887552302152,
  697870717879151019221892835704697,
  697870767879151580801850074102037]

/-- Rows 1401 to 1600. -/
def rows7 : List ℕ := [
  697870897879149199231880869202990,
  697871757879148515101886989902410,
  697871777879150184751910736902681,
  697871787879152115881901008804263,
  697872657879150823361910643102730,
  697872687879149350661851975402076,
  697872707879160677362036582802266,
  697872757879160488382021304502021,
  697872787879150881241916691102715,
  697872847879155594781939786502688,
  697872867879161009672059718602046,
  697874658374160926111712914802033,
  697874667879149302721903766102090,
  697875657879159036062030308903132,
  697875667879153109171878067502204,
  697875747879149973301910239102354,
  697875827879159722182098679402283,
  697876737879148108541866069202029,
  697876757879158149121936046002078,
  697876857879149299271891255102190,
  697877727879161025572078258702039,
  697877767879152742501872480002010,
  697877837879155787711932117202237,
  697878657879160081252049705802025,
  697878757879158433171973823402095,
  697878777879154471231915701602007,
  697878797879149569451892020602063,
  697879767879153709861895919902028,
  697879807879152648841898389303830,
  697879867879152178051860663802243,
  697882657879156366671942954002226,
  697882737879151546001900563002570,
  697882757879149400941913431502380,
  697882777879154834121911370002013,
  697882797879152584701913331304054,
  697882837879157523791920974202007,
  697882867879150675251905647703381,
  697882897879149383741907662502174,
  697883658374167861561966680802007,
  697883668374168248791954180502088,
  697883687879151829891861015302177,
  697883717879151153251871274103633,
  697883727879158246751946709702027,
  697883737879149709481908824602351,
  697883757879158580911950097502011,
  697883787879149178811895652402463,
  697883797879149797281853333502161,
  697883827879159783292009644202016,
  697883837879160359882110417502042,
  697883847879155952431924639602056,
  697883857879152657141886753302196,
  697884677879159672501989129102031,
  697884797879149200121902583202286,
  697886657879153457661908892902056,
  697886687879160065022098324402125,
  697886697879149035091875563802770,
  697890867879148893701856373302029,
  698066678076142271252009024502352,
  698066808076142000882031269402465,
  698066898076143095291979590602236,
  698067698076144413361977445602495,
  698067728076140883571991892502860,
  698068658076144402871963499402009,
  698068698076141556892018754802388,
  698068758076141080742034362102694,
  698071688076144381071984520502489,
  698075758076140075401997681002791,
  698075778076140234891990282502909,
  698075788076140533161980699802683,
  698075838076142336981969502002265,
  698075848076140474311990546402995,
  698076668076141237742026959602633,
  698076698076141181511961670602407,
  698076758076141553581991616002633,
  698076768076141716211993720802606,
  698076828076141220822023905602787,
  698076858076141425871961907402512,
  698077668076144029441991561102016,
  698077738076143401491960673702459,
  698077768076140326722014530602547,
  698077778076142195502016375902604,
  698077798076142449542006335502341,
  698078778076141624952005189702511,
  698078848076139465732000423304060,
  698079758076144587831985038302144,
  698080738076143160591967003002259,
  698080798076142424941968060902308,
  698080828076144249411986567402021,
  698080878076142383831978274102380,
  698082658076141386552011977302623,
  698082808076141476492011034502484,
  698082908076140110192020015502675,
  698083658076141456112035448102515,
  698083678076143592081948879202154,
  698083688076143392971946269802002,
  698083758076144478331970905602217,
  698083788076143794681958085602385,
  698083798076142201732002736802259,
  698083848076140628042019925702492,
  698083898076143471212009317302463,
  698084778076141588402000842802603,
  698084798076143030491985377902164,
  698087658076142171472009466302328,
  698087738076144550421966186802006,
  698087828076141108801968658302404,
  698087848076143297751984069102298,
  698090658076140703362031995102751,
  698090718076142133821957819402193,
  698367708369148386741955159902308,
  698367758369148619441960932102090,
  698367778369149894781975700002068,
  698368708369146256931952625502191,
  698370828369148507021930546002230,
  698370838369147065671968649402016,
  698371658369148178781919787402424,
  698371678369148136871936048403098,
  698371688369148194251939992902456,
  698371698369147698271928472002563,
  698371708369146971321923949302036,
  698371718369147649531922677102506,
  698371728369148098491931081202480,
  698371738369147953001925791402226,
  698371748369147748191940629902741,
  698371758369148164811935818602785,
  698371768369148461351931593402200,
  698371778369147443701926440102378,
  698371788369148577241936155102259,
  698371808369147765891918688302059,
  698371828369148448881939686102324,
  698371837879149013431913396802115,
  698371848369148324231923366202137,
  698371858369148365441917727102120,
  698371868369147123371922237402003,
  698371898369149087261929570102151,
  698373658369148509171944897402308,
  698373668369148418161927096702181,
  698375668369149416821978827902050,
  698375678369149920321975338502062,
  698375688369150559581943814702773,
  698375718369150290961974207102105,
  698375728369150156781935264102460,
  698375758369149339621944910102400,
  698375778369150965611945059902634,
  698375788369148786661968803702140,
  698375798369149796141934874802279,
  698375858369149856871931115802380,
  698375868369149670711926387402237,
  698377658369146605171956018402442,
  698377668369146860601966536202118,
  698377678369147661981949452802720,
  698377688369146187361937473702184,
  698377698369145841891933298002196,
  698377708369146385311934709502378,
  698377718369146945341939187902534,
  698377728369146186401925717902021,
  698377738369145596511936827202118,
  698377748369145996211930472902276,
  698377758369145911821940833302076,
  698377768369145946971928611502194,
  698377788369145686971932131102080,
  698377798369147342111964966002096,
  698377808369147260421935950802507,
  698377818369146696821962766602017,
  698377838369145548061933737802236,
  698377848369146681001928182102101,
  698377858369146568191941639202480,
  698377868369147285501941256102556,
  698377878369146530391949624902426,
  698377888369146919941947240902610,
  698377898369147165941934356602540,
  698377908369147326321970609802028,
  698378658369153741771954518203119,
  698378668369153168241969906902433,
  698378678369152406611937388903460,
  698378688369152047341944048003178,
  698378698369156532702023631502295,
  698378718369157136012007971903027,
  698378728369151771581970706202095,
  698378748369156503502001340802904,
  698378758369153057471977659402034,
  698378768369154556731987014602705,
  698378778369153133101948027803236,
  698378788369152536561974373402016,
  698378798369153413981989710802354,
  698378808369155402632012577802043,
  698378818369157812652003203103508,
  698378828369151186051947083402683,
  698378838369154627412010557802155,
  698378848369152486041969863602886,
  698378858369153798542002693102024,
  698378868369154580621968183203140,
  698378888369155598561992561703245,
  698378898369151268701970809302088,
  698378908369153198811944794403231,
  698379698369149210981950328102188,
  698379728369150026821935781202474,
  698379758369149434531933277602352,
  698379768369150589141965916402210,
  698379878369149578481966292502021,
  698380658369155554802020974102065]

/-- Rows 1601 to 1800. -/
def rows8 : List ℕ := [
  698380698369155879802001280702597,
  698381798369149394141959144702033,
  698383658369149637261979132202137,
  698383668369149359271979279602047,
  698383678369149379701964419802043,
  698383688369150429091954998802503,
  698383698369149343771977472002017,
  698383708369147529581958093602366,
  698383718369150091821950976602892,
  698383728369148982191946697902389,
  698383738369148093491943909002309,
  698383758369150602111969515402224,
  698383768369148409901956633702172,
  698383778369149609021939192102588,
  698383788369149733701987018902040,
  698383808369148586111962316902032,
  698383848369150163981929860402393,
  698383858369149359541967078402139,
  698383868369147654411983402102164,
  698383878369147776891965269802129,
  698383888369149578231965089402025,
  698383908369149100331972138602056,
  698384658369146297781928441802068,
  698384768369146087341931778802140,
  698384798369145543391940065202220,
  698384848369145388221930187202012,
  698385668369151509361963720402378,
  698385688369154969901976850802915,
  698385697879151875601926813503477,
  698385718369155308411979750702980,
  698385728369152634201979755502271,
  698385748369152562731958390502427,
  698385758369157770362002485703549,
  698385768369151816871959982702485,
  698385778369151292911968399102215,
  698385808369157248842030545302542,
  698385828369153493051964784702660,
  698385838369154156681972847303011,
  698385847879155812051950752003503,
  698385868369155648262010667302227,
  698385898369151385661958393302515,
  698386658369150183051961198102320,
  698386668369147848591990403002066,
  698386708369149461471977287102030,
  698386718369150551351950762102575,
  698386728369149870741944237202600,
  698386758369149025611962179302132,
  698386778369150655491937291202975,
  698386818369149526371959639202025,
  698386838369150781811948326202611,
  698465686869139966791866835603197,
  698465826869139432561875788302781,
  698469746869139916671909100002823,
  698472666869142276651890690902230,
  698472676869142589871900088002129,
  698472696869142290831873833302129,
  698472706869141116761892794202566,
  698472766869138220671898989603766,
  698472776869140364171873043302597,
  698472786869139390671899515003536,
  698472826869139217171910963303268,
  698472836869142919511901657002245,
  698472846869141766651942807902131,
  698473676869139702321919360303363,
  698473726869139218061918316703455,
  698477786869143765451886403902074,
  698478686869142585171883315302127,
  698478716869140961011860200402296,
  698478726869144310151895197402039,
  698478746869143535831878703302024,
  698478766869143919671922603302138,
  698478786869140826821866422202386,
  698478836869144452001895025002070,
  698478846869143545671876493302026,
  698478856869143601971932886802228,
  698478876869142456171894135002187,
  698479736869139634441917602803353,
  698479826869139560891884585902309,
  698479856869140047051883110302461,
  698483656869138067671908928304044,
  698483666869140163971870547103568,
  698483696869138320371919331503515,
  698483706869138206171912488303703,
  698483726869141768501931501702265,
  698483736869138704501915186703202,
  698483766869138175891908532103822,
  698483786869138711171911950003249,
  698485796869141923051882899702236,
  698487776869142721531873263202068,
  698676657686146514492010817602016,
  698682657686146935072039730802034,
  698686657686147353052015379102019,
  698975657684144962672040594902256,
  698975837684144880562038730602246,
  698980657684145964462010903202033,
  698980807684145736112044505602197,
  698983657684145906902033794002443,
  698983667684146071642035502702270,
  698986737684144623732052785502646,
  706565667865061415571965360502098,
  706565719065060712311988062604648,
  706565766687067320352090485004600,
  706566669065063769322082992207300,
  706566699065057096632072679603950,
  706566769065060894972063024006458,
  706566779065061755172083289907561,
  706566799065062630082066238906236,
  706567849065056011981986090202151,
  706567869065058497841997206105250,
  706568759065061626492122458002210,
  706568789065060021072109430202033,
  706569769065056962752078119302435,
  706569799065063507062099727107700,
  706570669065061173672079028307315,
  706571679065064021072081359007325,
  706571719065055994132023676702648,
  706571779065063757462081405207483,
  706571829065057802532045402904604,
  706571849065056719082064937504135,
  706571899065060872582105810805531,
  706572659065061918252068555006399,
  706572829065061768712091018107585,
  706572839065065662392110469603743,
  706572869065059434062055204506176,
  706574839065063853682082343407558,
  706575689065063135482067162606444,
  706575779065061179932047651105950,
  706575789065064607272110980604829,
  706575829065063917382077216807499,
  706575839065062334712073084606700,
  706575859065062535672034107806382,
  706575909065060304881970933302270,
  706576659065064052182079149606517,
  706576679065061644282034326306900,
  706576699065060374952111077502304,
  706576739065063829862061830606875,
  706576769065059594222050998502255,
  706576779065066842462096794105069,
  706576799065066937222098589205025,
  706576879065057021751981661902108,
  706576899065061418052097435805548,
  706577669065064320162094330306886,
  706577689065065186852115401303124,
  706577719065059136982103401402495,
  706577739065065007432092797804980,
  706577749065062924412097721807600,
  706577779065064182412055391306181,
  706577789065064524682115599403153,
  706577839065064289402069069706251,
  706577859065062381552120405602400,
  706578679065062229522099692706074,
  706578899065065313472084289205900,
  706579669065055445612002502902052,
  706579729065056385422021875603063,
  706580699065056007042056010502226,
  706580719065055910582033212302465,
  706580729065066057642111567003432,
  706580739065066068912094747406354,
  706580749065058391952095146303227,
  706580769065062640602116031602890,
  706580779065060356832103942404423,
  706580789065064656312071653305412,
  706580809065066139662094589206076,
  706580839065063322432070801906520,
  706580899065063106232074987506740,
  706581849065058080292068760505637,
  706582669065061254112120883802109,
  706582719065064360282072677005700,
  706582839065056187661999016802640,
  706583669065060308681979317004690,
  706583679065063475972091646207250,
  706583689065057029451979698002050,
  706583729065056015751988235202321,
  706583739065063744672083952807340,
  706583759065064181792081638206780,
  706583839065062358492029955405848,
  706583889065055955892004678202407,
  706583909065065045492115856103020,
  706584709065061733232029918006360,
  706584809065060951432061611206547,
  706584849065063217042093364307313,
  706584909065066171482103239603914,
  706585769065061674492114127103720,
  706585809065061620092012520304791,
  706585849065058455662086646804400,
  706586669065063022792047271205920,
  706586719065060225632110562902020,
  706586776687067549672093306704333,
  706586829065058355801985390702330,
  706586869065063422662079593906846,
  706587669065064346752082120706095,
  706587739065064162312091899607078,
  706587759065064156162082247906940,
  706587779065061996092066618506399,
  706589809065056092701984990002052,
  706590829065064393112060379406258,
  706667796687070874702030956005150,
  706670846687068841672074640505283,
  706671726687064564102054032006218,
  706671776687070650002021417005150]

/-- Rows 1801 to 2000. -/
def rows9 : List ℕ := [
  706674876687065394502046834705900,
  706675687865071787502033929005100,
  706675696687072164162051534505289,
  706675706687070499202009953005600,
  706675826687070855602037775005000,
  706675896687064945702053139006200,
  706676846687068579402055726005241,
  706677716687066818402074948004747,
  706677766687065606202054959005790,
  706677776687069689302039025005100,
  706677786687070023792034224105093,
  706678786687070317602021959005200,
  706678846687069766702061614004690,
  706678886687071397002020696005250,
  706679756687066916702018797005500,
  706680686687071469002056290005600,
  706680896687067448302071283005000,
  706683756687065438332059051705299,
  706683786687069448292061081104985,
  706683806687067943282078203204925,
  706683867865071471602040703005150,
  706684696687065964402018957005700,
  706684806687065772992053339705750,
  706684836687063962702023976005150,
  706688666687070450602030560005150,
  706688716687070945502030875005000,
  706766666771085738731952416303048,
  706779796771089467171959421603214,
  706779856771091607061960356503158,
  706780806771085195381918837602055,
  706877838390063463992112970404075,
  706970706770094409831985158503208,
  706970846770094229091957846803929,
  707166847181091898661897997702013,
  707183767181093745411886999102076,
  707265878372082036591655939402278,
  707377807785069576682376692502186,
  707377827785070243932433550702095,
  707468717786082695432523970002009,
  707575676777094084681893562702151,
  707575686777094011871897080402033,
  707575766777100457431942499703390,
  707575776777095629411907450205963,
  707575786777097345991935547405655,
  707575826777099334901933548302794,
  707575856777095546411903484306347,
  707575866777096050421901209006065,
  707575896777093827841915197904464,
  707589836777093707411915506304278,
  707675699077077428812078878906636,
  707676679077074583362083216706200,
  707676739077072179112058097305302,
  707676839077074670802084343105779,
  707677709077076739842119265303853,
  707677719077074744922031553105488,
  707678689077077002652086540406167,
  707683799077077101982081409206145,
  707767727577078453412232695502093,
  707767737577077705112237613902046,
  707767867577077869002244241902062,
  707767908984077197812252779202023,
  707769698269069114042355046202066,
  707769808269068685242354165802056,
  707777657771070974282271604006757,
  707777737771071205212274642706198,
  707777787771070441392254480602203,
  707777837771072901022298167102007,
  707777847771071880582293936502022,
  707777867771069715132243147902030,
  707778657771077654382292860602374,
  707778677771073836742297679002009,
  707778687771075342782296200003552,
  707778697771076813152289812602072,
  707778727771075005732303185702020,
  707778767771075371322277583102345,
  707778777771074339542263442202087,
  707778787771076680682283079102036,
  707778817771073256472244758902125,
  707778827771074565832296836102013,
  707778837771075726112301716602020,
  707778867771076628062299983302019,
  707778877771075094492279935902092,
  707778907771076519902286287402049,
  707783687771064956582269505202029,
  707783707771068555792271064305658,
  707783717771067196182278157202026,
  707783757771067875832280186102033,
  707783777771068792002283556102020,
  707783827771068240972233725402016,
  707783847771066608352237245602029,
  707866676579083737541942435503860,
  707866716579077395641933980802118,
  707867656579084391711921885302066,
  707868856768082592322008126904451,
  707871736579072962691956700005566,
  707872856579077193341957485107587,
  707875856579077591421969366207618,
  707876666579077634711935331302010,
  707876856579081123121932139402243,
  707876906579080878181980458904904,
  707877656579080480381963040005868,
  707877696579075349861977055306469,
  707877796579074734241921360602210,
  707878716579082255331952831906105,
  707880656579079275431937617802016,
  707883656579080320812004199905584,
  707883796579083853531923640102015,
  707883856579078828991938444602036,
  707885666579075074911935613607778,
  707885696579078234561998869706360,
  707885716579082388001950270504720,
  707887756579078569821950931506324,
  707888657865073235091949614605635,
  707890716579082281002013502504431,
  707971757165088822421924373503070,
  707971777165088162781910549002295,
  707971797165091535721915780104158,
  707971817165089332811936666803325,
  707971827165089287921902387802082,
  707979667165092079921914865803969,
  707979717165089280311887511402013,
  707979727165088430441892575902033,
  707979757165090574951928840403726,
  707979767165090470811894063502039,
  707979787165088355051934298403450,
  708080828384091668721874105002591,
  708083848384090380531867024202033,
  708166827790070206362148965102033,
  708167727790070837902134280204287,
  708173787790066129382154047602030,
  708176677790076722242152552506505,
  708176857790074960142206716702033,
  708177657790064075152125701502145,
  708177688490078336932195590804789,
  708177807790078629992203510402089,
  708177827790076781062175473104480,
  708178677790075500502207113302410,
  708178807790074888192192751103444,
  708180667790077014372205220802331,
  708181767790072152592168682602036,
  708183717790074401142127716904904,
  708184847790073883862136398602525,
  708185717787075302942143492806265,
  708186767790067988902153097602046,
  708365768367082999712327230902010,
  708365837577080260832265022802010,
  708368658367084586512332943402009,
  708368828367084305442336499902010,
  708370657771079892992311728102010,
  708373658367085333372355108002010,
  708380808367085686152356881702010,
  708383678367082869152362731002010,
  708484678468103847992008303103788,
  708484688468098617711960667603407,
  708484748468102124921950247302968,
  708484898468107910431990998202771,
  708666859087069983782086151606359,
  708667789087073265392111169306058,
  708667809087072244802109195406845,
  708667909087068997012115720303421,
  708670659087071907762058285805490,
  708672659087072053122110770906887,
  708675669087073479252088773003706,
  708677689087073231492115546605240,
  708677849087072567582121793105950,
  708677859087071004172126230605410,
  708677869087069945202108589305595,
  708679849087073016042126676304450,
  708683729087069714902100848605012,
  708683758583151935200328252705289,
  708684769087070568822098504406680,
  708687789087071362362070007805543,
  708767767787074322742149587104555,
  708775657787080050692138890803765,
  708775717787076983902134632805470,
  708775737787076220882137684406035,
  708776697787076036532136944605722,
  708785857787078560832140098206115,
  708790657787074613712153787604650,
  708877777683060530472075502407348,
  708877857683060690212075008607105,
  708965657865062006901975910003500,
  708965667865063197801996476005300,
  708965727865068702501953947005330,
  708965737865068179301956171005316,
  708965759065061550001974563002984,
  708965777865066360501993361006100,
  708965787865065878501991142005900,
  708965827865067536421949707803905,
  708965837865063334001962862006720,
  708965869065061886701998235004400,
  708966657865068583301965290007200,
  708966697865065377301959910004950,
  708966717865071906102016193005300,
  708966747865066135301979829006140,
  708966827865063006901977635005000,
  708966876687072216702025833005300,
  708966897865070386901954194006300,
  708967667865066050001944666002000,
  708967677865068234001939871002010]

/-- Rows 2001 to 2200. -/
def rows10 : List ℕ := [
  708967797865066166701988333006100,
  708967867865068266701985118007207,
  708968677865069568301941205003800,
  708969657865070197801939335005270,
  708969687865070457501988293005800,
  708969707865072972101932060004500,
  708969727865072514401938152005750,
  708969757865068315201991092006850,
  708969777865067109201956959005900,
  708969787865072514931963140105660,
  708969797865068773101960222006460,
  708969807865070581101956743005871,
  708969827865070702301945479007584,
  708969847865067809101957514005561,
  708969857865072547201945235005690,
  708971677865065142501988218005600,
  708971707865070395171981158306636,
  708971737865064872801977582005100,
  708971757865065329401957833004300,
  708971767865068670001960821006100,
  708971777865065579501967131006400,
  708971787865062242501983444005800,
  708971797865066447601950400003400,
  708971807865069750001966666006500,
  708971847865069971901950600005800,
  708971877865067633301961299005000,
  708972657865068277801993435006800,
  708972677865069512201970073007120,
  708972727865064108301968098006400,
  708972737865070963601964574005650,
  708972767865070025001947691005000,
  708972777865065110801961918006470,
  708972787865067893201942962002120,
  708972837865062366401976927004316,
  708972847865070669701943617005700,
  708972867865072623701922528004045,
  708973657865065907701979509006000,
  708973667865067047901976411007100,
  708973727865068881401958871006300,
  708973736687072225702051805005058,
  708973777865072224602033009005300,
  708973827865069000001973333006400,
  708975667865061966701987296005265,
  708975677865062338501978400005124,
  708975697865064365901998613005150,
  708975717865072431101972178005600,
  708975737865071230501925736002800,
  708975767865066382301978672006400,
  708975777865072363842041660105144,
  708975787865069131701966349007357,
  708975797865070300001977133007200,
  708975807865069872401970007006900,
  708975827865069954301967307006500,
  708975837865064050001991107005150,
  708975847865063450221981082605506,
  708975857865069341001938617002800,
  708975877865072557501932699005800,
  708975887865069633301950519005296,
  708975897865064883301962666006143,
  708975907865066670101983635006400,
  708976827865071020701978521005900,
  708976837865071885602033871005180,
  708976867865066495601987825006100,
  708976877865065003401985468005700,
  708976907865063308321952414002457,
  708977667865065379801946950002046,
  708977687865070469701997285006000,
  708977707865072704801924331004500,
  708977717865067975201973627007100,
  708977737865068126801940755002043,
  708977767865065387861979268005650,
  708977807865068269301978853007633,
  708977827865068906801962258006850,
  708977837865065308701998539005580,
  708977847865071265401985772005800,
  708977857865071175601971381005600,
  708977877865070602701927412002030,
  708978667865067954901961780006101,
  708978689065061298101976173008200,
  708978717865070668601959072005775,
  708978767865072019002033048005181,
  708978787865066007901959288005500,
  708978807865072237001984477005700,
  708978827865065543201962224006000,
  708978837865063106701986000005041,
  708978847865063959001962226006590,
  708978857865070434501957284006020,
  708979657865072116191959397605599,
  708979667865068783301962947006200,
  708979687865067831101962955004210,
  708979696687072000002022931005400,
  708979707865068402201978636007345,
  708979717865061408061964466702014,
  708979727865072116101950666005600,
  708979747865069931841961201106343,
  708979757865069397501974619006400,
  708979777865068582501959259005983,
  708979787865067998001968807006900,
  708979827865068244401964899006930,
  708979837865072215901956922005600,
  708979847865066033301997000006000,
  708979867865070368201973123006658,
  708979907865069366701970599006900,
  708980657865067701401970633006700,
  708980797865066365201977315006265,
  708980827865068389201977049007291,
  708980857865071240401929457002886,
  708980877865070124301939378005200,
  708982677865072579371943718605765,
  708982707865070236901978559006955,
  708982727865066705401970117006950,
  708982797865069385701971839006714,
  708982807865062039261967492203274,
  708982827865069460001944293004100,
  708982837865066713401961010005832,
  708982857865072038851997044205627,
  708982877865065038301960048005168,
  708982907865066459001958348004800,
  708983677865064279201963743006000,
  708983697865065490801998701005600,
  708983707865070894001936442003800,
  708983717865072000002013616005400,
  708983737865072019502005289005455,
  708983767865065190901958838004854,
  708983787865067890401969700006900,
  708983797865066117301960128005800,
  708983807865065666701984333006000,
  708983827865071232301923814002500,
  708983837865065495801957596004500,
  708983847865066003301985479006000,
  708983857865065514001958107004500,
  708983867865065370701959321004800,
  708983877865066500001960499005100,
  708984667865067607501957943005100,
  708984697865070035201930212002023,
  708984707865069457101943517003800,
  708984747865069103801955485004800,
  708984766687068157002007246006100,
  708984777865070740191977256006353,
  708984787865068837801987500006800,
  708984797865069780001931994002100,
  708984827865064543701994383005500,
  708984837865072248101948816005628,
  708984847865064752101900592005400,
  708984877865069236701967997006700,
  708984907865068070201971288006230,
  708985697865072250001958333005600,
  708985757865068011601956025004954,
  708985837865068773501948637004700,
  708986657865068833301969166006500,
  708986757865063032201975153004854,
  708987667865067017071946354702299,
  708987687865064891301959904005400,
  708987697865067384771970806707575,
  708987727865067510241974495407640,
  708987737865067294801984796006688,
  708987757865067568701944667002020,
  708987767865069663001975262006547,
  708987777865061550001987134004500,
  708990827865065477001962930006480,
  709065656768085602831954267203027,
  709065666768085670821953201702915,
  709065716579084063241923486502089,
  709065736579084073611924384202394,
  709066796768086690411973757203053,
  709067656768084959311987805103572,
  709069656768090032471982875603040,
  709070686768094248902009615103509,
  709070756768093237311997624803378,
  709070806770094151822016605803801,
  709071656768092164042014895803509,
  709073656768090518682051451603289,
  709073676768090490672053250803417,
  709074726768092834882075795904438,
  709075656768091566652102123806045,
  709075746768092815572047847403378,
  709077656768087699672088063707643,
  709078656768088338162092375707089,
  709078738571089276102096962105248,
  709079656768087090762059146603630,
  709081656768078402892075172806295,
  709081776768079235602054978607007,
  709082706768084120262092426404569,
  709083656768081366532052563205543,
  709085656768084102962024597104139,
  709087656768083887292035661304221,
  716566837776102526831720396503246,
  716571797776106243211799841802870,
  716575897776104480101685882502164,
  716577667776104504971759117702906,
  716583797776101595621741933603301,
  716584667776106726881769832502863,
  716584837776110235091809687503621,
  716689687177103348551633351902095,
  716770866983118441891661358802085,
  716771776983118028591627778602715,
  716772736983117819851621100302337,
  716776656983118616561622445802107,
  716776666983117781061644888202000,
  716776806983117918871646076602077]

/-- Rows 2201 to 2400. -/
def rows11 : List ℕ := [
  716782826983118935821663891802000,
  716784836983118039201634123602209,
  716788796983118488061636421804076,
  716977766983125285861770388202156,
  717076768376098620691667906002084,
  717167707187101282421648128302065,
  717179867187101876831643456302129,
  717677827682096282541692360602025,
  717682667682096220831696298702031,
  717765657765120383101704386302089,
  717765687765120323021705718002250,
  717765847765118440221688338802653,
  717770707765123927391750047903900,
  717770737765123496741748422107459,
  717770757765121956581755850705428,
  717770777765123872241744745703890,
  717770797765124779931780621603535,
  717777656972116743651683081302350,
  717777667765123666241727682002627,
  717777697765124037991732386102276,
  717777726972113705791640623102036,
  717777737765121405861703139702384,
  717777766972117130211667646102207,
  717777787765123384041724064802656,
  717777877765124985971769557302574,
  717777887765121608371719474603545,
  717777897765124296451733880402016,
  717777907765120945161730765605782,
  717783767765124225041739323602179,
  717784657765125188491761586802095,
  717784787765125588291746696402010,
  717784847765125733271740596902062,
  717968758378102892501650286702033,
  717971718378102555361637111102075,
  717971838378102398191632491902052,
  717979758378104142311639429702026,
  717979898378104757111625190602085,
  717983838378106059271635356802009,
  717984668378104843281675247102098,
  717984758378102574201677716102584,
  717984848378103730941663398702161,
  718178657782106705191703581002951,
  718178687782108566861685697303316,
  718178707782106586571685872502423,
  718178737782106621071726736102758,
  718178757782106153821664823002075,
  718178787782108087061640432002007,
  718178837782105175681677865402262,
  718180657782110495041669496802758,
  718180807782110922321629671802016,
  718180847765115226341684116803194,
  718279778285150708982101291502230,
  718567897178099567211663767102072,
  718570657178100345651664252402499,
  718570727178100034151692194403476,
  718576667178101320341677060505396,
  718665676786106721331570511702177,
  718666656786106131241571094702069,
  718677656786105150531567861402036,
  718678806786104931891565115002230,
  718683786786106581951557162902669,
  718683866786106828421549378602066,
  726565666984098972262187835109656,
  726565766984099006402187214609749,
  726565776984096028692175836905895,
  726565886984104156952187692708915,
  726566686984101598582173119707976,
  726568826984099635762218484505829,
  726571776984098140022145632403771,
  726571786984102532202174317608541,
  726571798379095926522235716902834,
  726574776984097671232168092007587,
  726576766984101976192189688608423,
  726577756984103473412195179809406,
  726583796984100022242145781907120,
  726666656673086692012093160104582,
  726777728379099511852240795206423,
  726777738379100376382249272902030,
  726777758379089610422224478602049,
  726865776874101547532231451102049,
  726965766971120934752084475602143,
  726965826971121085762138296802121,
  726965846971117055232110003002772,
  726965886971121174662099381301994,
  726965906971120101942113600402300,
  726966656971120930372096850902177,
  726966766971112387682116044302616,
  726966836971119182002110162802108,
  726967656971120099692113982302382,
  726967876971120132182109107302550,
  726968756971115421242089966902613,
  726969776971120071802111826002059,
  726971786971117195762137942502052,
  726971796971117373812136658102056,
  726971826971121070482141371402324,
  726975716971115489432105906602192,
  726976886971115658582127006702294,
  726977656971115568822145761902251,
  726977776971121322022072148902094,
  726979676971119803212108215702807,
  726979876971112570042087141302859,
  726980836971121282282122281902008,
  726983676971118694602140610406368,
  726983726971117968502143826302143,
  726983786971113979522128173202662,
  726984667376119575432147631604415,
  726984826971118212302136306902115,
  727265836982105283602188940309660,
  727277836982105665932193542702194,
  727283666982103079772226310002046,
  727569767569090400912152212908941,
  727574757569088672262169161207330,
  727575717569090270462147827007020,
  727575737569089909592147210505796,
  727575847569090966912149543608070,
  727576758571094204352143396904074,
  727576797569093121392156042103715,
  727576857569087753662209100202020,
  727577797569085960482195916702200,
  727578867569089216972164341008380,
  727578877569088681122168119107546,
  727582697569088716802168530807380,
  727587747569091743742200846102770,
  727670767689118804742020781002161,
  727671687689121067751965898302267,
  727671767689118639302014378302325,
  727671847689115151581901416704296,
  727675707689114163182033081703367,
  727676667689122111582002614902433,
  727676777689122895221932695002036,
  727676817689122794482019341104157,
  727676837689117004471944513803427,
  727676847689122663091931287602263,
  727677667689120386471995700602050,
  727678707689120511901985273102042,
  727679787689119115451959586802919,
  727682657689119478321979263403050,
  727684687689120138581896873303122,
  727690657689118594471972841903085,
  727690877689122948171920071502000,
  728289718287088318272092581007082,
  728289828287088034102101239406859,
  728290658287087531252089060007192,
  728368788368109167362104287702773,
  728368908368101797022143347403582,
  728370838368103606742053139604393,
  728375658368105375422163238003671,
  728376738368101132732096907403848,
  728378788368102043242049470104106,
  728379668368103139792102307503927,
  728380788368109444642172314902135,
  728383748383094879022115928503513,
  728383778383099552502116458903291,
  728383838368105602962125530303265,
  728465828490086633112166182206550,
  728468658490083117142191977902182,
  728468798490083829802157437405637,
  728473828490082324082157503906678,
  728475748490086569842170582904932,
  728476778490086626362158134406150,
  728477848490079650762201810802371,
  728477878490087561772129201205763,
  728480698490084736352198088102080,
  728484718490084904932190661402129,
  728490658490083789022192237702054,
  728565748571093339382117596304611,
  728565828571093041622109126602000,
  728569788571090055602124359305782,
  728571858571092818972122671105510,
  728574738571090457542131877505871,
  728575708571092322732114903704365,
  728575738571088710932097204908200,
  728575748571090200652125497602000,
  728575758571090500732132827705937,
  728575798571093716502137428106068,
  728575838571090191072101029905146,
  728576738571092248372129055805579,
  728577658571089442812106068106599,
  728577738571091747882117358502000,
  728577798571092509462145888906133,
  728577878571089803462098886605215,
  728580658571092198222115488204395,
  728583798571091722322136164405641,
  728584798571090675162141682805838,
  756565658583130153310906600402597,
  756565708583119732910949651102020,
  756565798583127755890827801403421,
  756565808583119728800844107002080,
  756565838583127353840946839902921,
  756565848583131487820594301806374,
  756566698583130646981045493702394,
  756566738583122428080803150803791,
  756566818583125044350733784107355,
  756566828583135455240815719603302,
  756566898583121529590958002902197,
  756567668583134982030947987502623,
  756567748583122104380958044902471,
  756567758583131246941099274802048,
  756567808583120757370873115702107,
  756567818583134077660864442403126]

/-- Rows 2401 to 2600. -/
def rows12 : List ℕ := [
  756567848583121603530827700402516,
  756567868583130985660558866302221,
  756567898583129464261054089902075,
  756567908583124717411019897402039,
  756568678583136455520847867303369,
  756568718583131861610959152702798,
  756568728583124813270833280203016,
  756568778583124306030829767802762,
  756568838583122977840831594902644,
  756568848583129848250789556704991,
  756568858583131705420850762003287,
  756568878583128797741031364302280,
  756569718583125138750731908207837,
  756569748583128825000738748409946,
  756569768583133687390866311403259,
  756569888583121337880874407702089,
  756570708583128977780751738908572,
  756570748583130135890997009003184,
  756570758583130612320841303903162,
  756570788583132808611079940403040,
  756570798583132718400690578808221,
  756570808583125027460999189402300,
  756570878583123001640826792502722,
  756571678583130354281000589003252,
  756571798583123234350867832602317,
  756571828583117640860986485402068,
  756571838583123382390980291202144,
  756571908583133063610816963903475,
  756572678583130267690598346805934,
  756572728583135286630876243903088,
  756572788583123948910966617902808,
  756572818583131236680834032503224,
  756573658583132060010771814205931,
  756573668583128235510714293507940,
  756573688583130111940943770602919,
  756573718583135159610908894803521,
  756573758583123646070983042202528,
  756573798583131411000849471903182,
  756573848583136556010863235403205,
  756573868583123103220917950702150,
  756573908583128088920874437202869,
  756574718583128610890922661102429,
  756574798583123897590623923102533,
  756574828583124495810964356303447,
  756574908583128780680719298407193,
  756575728583125198070988471302797,
  756575798583130180340767670506714,
  756575818583126981521029967402113,
  756575828583131033340985221803067,
  756576668583132737561061957502285,
  756576738583117745320819661102178,
  756576778583122833200740012706200,
  756576788583128895240899450302544,
  756576798583132566040875880402873,
  756576838583127425180741243909539,
  756576878583136085320617083203205,
  756576888583122922190940366602686,
  756577658583125205120782673005607,
  756577718583121542060974895402200,
  756577788583133323020953039802754,
  756577848583128847830964290602896,
  756577878583131982700863752402955,
  756578668583123581790941332802612,
  756578688583124488590972840902782,
  756578698583135151690867901002912,
  756578748583136484360956243602716,
  756578758583128534940739392609523,
  756578808583128943911034274102034,
  756578818583131635460949104502995,
  756578878583132585670800033404589,
  756578898583127163700819209603340,
  756579678583133600460666540307332,
  756579728583130706940959640502975,
  756579798583130288731016768603504,
  756579868583126975570873138403311,
  756580658583129584140751485307883,
  756580678583128223210577220402035,
  756580708583116147220982186102008,
  756580718583129455811038249602057,
  756580728583128066661026784402220,
  756580788583135064940964386302689,
  756580848583125056890944110802641,
  756580868583124587550628174605062,
  756581798583120789510813378803102,
  756581808583135230290839914303020,
  756581828583124402480838520402590,
  756581878583132697781068222202654,
  756582658583120048490881133702024,
  756582668583132220240962498802839,
  756582718583126113570890663402273,
  756582778583119260270838417702100,
  756582828583131770150915146302712,
  756582848583133987841039700602325,
  756582868583135937730902669803630,
  756583688583120351880901791402027,
  756583698583129232170731268509820,
  756583718583126183620858818603353,
  756583728583132785831084766102199,
  756583748583126291341028290902068,
  756583768583122525900856890402357,
  756583788583123563200939434402528,
  756583848583136159830561102502015,
  756583878583131272410941537702850,
  756583888583136540550890753502826,
  756583898583136028370806430404032,
  756584658583123099570858003302280,
  756584768583123634700955520103026,
  756584838583122846040755249105541,
  756584878583134248930914738202918,
  756584898583134922210828307003748,
  756585718583134327661101963202352,
  756585728583130899910820039603804,
  756585778583133670510870655703233,
  756585788583128954170589118303536,
  756585798583122620200945639602777,
  756585838583120213610823206402542,
  756585878583134930220903616103201,
  756586678583126681421019458902442,
  756586758583126780730813309803474,
  756586768583125446500974535604165,
  756586798583117584480984649102156,
  756586808583131328701042684702962,
  756586818583122417670687737904031,
  756586888583123402190615799203601,
  756587718583131279600883237202754,
  756587778583125143300897656502212,
  756587798583138161700578311702465,
  756588658583133081540857216203219,
  756588728583119506640845152502068,
  756588788583135871630845979303425,
  756588818583131221811005537503458,
  756588838583124706340806619003433,
  756588868583130491800956923102912,
  756588888583126434210747105610380,
  756589838583121255450976016202142,
  756589888583125385440939091503065,
  756590678583126964700669761106874,
  756590698583121889450973480102255,
  756590798583132242460944480302874,
  756590858583125273490857674902785,
  756665668583129151750585566102113,
  756665688583122516150863282402166,
  756665708583132145301072811802271,
  756665758583129255240940951202656,
  756665778583130605290631177806532,
  756665888583133785030970124402766,
  756665908583119709520819563702650,
  756666668583135336340843448103039,
  756666688583121185300806753903827,
  756666718583126540120867924903303,
  756666808583124617971002586702147,
  756666878583131441390803537704547,
  756667668583127210490995852504132,
  756667698583127699380678452509590,
  756667758583134249690891360602836,
  756667848583116372310998856102013,
  756668698583138732310853780103086,
  756668708583131230310903796402808,
  756668718583127591280705167207865,
  756668728583135122850848617403126,
  756668748583136134030903483403665,
  756668768583131932011073034202172,
  756668788583134101690587997905456,
  756668818583125133420872799502321,
  756668828583131166241068650402009,
  756668858583130039720747652707288,
  756669658583118365970822036302268,
  756669678583127705280827875403408,
  756669688583132471831086996502133,
  756669728583132127940935632002643,
  756670658583135172830950740602719,
  756670688583131809321013511804143,
  756670698583123165780778030405264,
  756670708583131882290763950405967,
  756670738583137537990576925402020,
  756670758583126869170803813903822,
  756670768583125446350609287202507,
  756670778583120633080919200602026,
  756670828583128845580935472702728,
  756670878583137247650885783403089,
  756671688583125710010786062605055,
  756671698583120972820953567002141,
  756671708583125184400939340802979,
  756671778583132219251040131603636,
  756671828583134818371111560702192,
  756672668583134443871116327102083,
  756672678583121712050975984502201,
  756672758583136352600757340304973,
  756672778583123554800932284502643,
  756673688583131167761084178602108,
  756673698583130309840832462203324,
  756673708583121836100736048305948,
  756673728583127380140616266606124,
  756673748583121392610950984902214,
  756673768583135812730714451805652,
  756673838583136783950792382103661,
  756673868583132741310938811802698,
  756673888583120401880910685502033,
  756674678583129915290748715707670,
  756674738583137515980850569603390]

/-- Rows 2601 to 2800. -/
def rows13 : List ℕ := [
  756674748583130874840981023503136,
  756675688583122724590811090103284,
  756675698583134842270621865905373,
  756675708583129714980752385807662,
  756675768583131513850983073402583,
  756675838583117214620818798702112,
  756675848583127068691020429702439,
  756675868583118475910975293902077,
  756675878583127782070988742204504,
  756675888583134309730831782803648,
  756676708583127290940987868704857,
  756676728583123616600652722702399,
  756676738583138801870574624302170,
  756676778583130194621058643202159,
  756676858583129279380592889907284,
  756676868583128556200901665002459,
  756677678583131562690679376606229,
  756677718583129158200933818602846,
  756677738583130464050910839702871,
  756677768583134581261088209103161,
  756677818583120732320817591803284,
  756677848583120074390857794802032,
  756678658583126141280933046502598,
  756678718583123922610631404404219,
  756678768583123252590986016602246,
  756678798583133596980610357906148,
  756678878583132054340861491703160,
  756679738583133570210637630904871,
  756679758583132077060557070302459,
  756679838583132374281089820702020,
  756679878583117944750982065402125,
  756680718583122226820784791404573,
  756680738583132592940698821108990,
  756680758583126364690875228002928,
  756680808583136190780765641704958,
  756680848583119955290859722202015,
  756681758583121254220985218702026,
  756681808583122761360881176002167,
  756681828583132921371013818902750,
  756682688583136417580858638803226,
  756682768583130788780888760602698,
  756682798583115912830825686902021,
  756682898583127807930944971902669,
  756683848583134413161109826102198,
  756684658583131422990838830503325,
  756684708583130874540680724506234,
  756684768583132295730947340202952,
  756684778583135966930674988007550,
  756684788583135818640822518403318,
  756684808583130774551000406703248,
  756684828583120540730888391002070,
  756684868583134480621068340102334,
  756684898583126868430632125505170,
  756685668583131780810808481404182,
  756685708583132931201012583202724,
  756685778583128295260856601002892,
  756685828583124197910616307302778,
  756685858583132693530916872202779,
  756685898583126044331005184402617,
  756686738583130772880996004603253,
  756686788583131733130819412603806,
  756686798583126770980839886402713,
  756686838583138477840575690702144,
  756686858583125949020651312904201,
  756686888583125723070883388802464,
  756686898583132579661090745002107,
  756687678583122992920644759401871,
  756687688583121801890810449203387,
  756687718583126958680935749702547,
  756687738583129174791033096702146,
  756687768583126799150826828003054,
  756687808583136250600833888202968,
  756688658583120818930901353402119,
  756688718583123039490979910802302,
  756688758583123430090673141403021,
  756688778583133881351100612102075,
  756689718583134387320732702606968,
  756689728583125980270900560402254,
  756689738583132537650662259506150,
  756689838583125274830633570004350,
  756689898583118978090841307602045,
  756690788583135788090688335106471,
  756765688583134272880945691503307,
  756765698583123944150988622502236,
  756765718583130494270724683408193,
  756765758583130907170985586503228,
  756765798583126438760768420706965,
  756765828583136868241119850602626,
  756765868583132744530862371903162,
  756766698583129611071012352402775,
  756766708583131268600842425503253,
  756766718583135562730867334702945,
  756766758583129435260789517105186,
  756766778583123655390915391202219,
  756767658583125299310856795502470,
  756767668583124109720623066603444,
  756767798583123317310952244102970,
  756767828583127981950579386702026,
  756767898583133077060873824303125,
  756768658583134564581079806403187,
  756768678583127690610668921907622,
  756768728583123631620872382902130,
  756768738583129970100984182302799,
  756768758583119135580969474102007,
  756768788583124279190994286202302,
  756768828583132832980768996505297,
  756768838583124440260797144703954,
  756768878583130867761057136802172,
  756769658583127653910827494103378,
  756769678583131784980557584502057,
  756769708583132177461074519902241,
  756769758583130623680830751503499,
  756769858583124669630971064102892,
  756769868583129707450948692902867,
  756769878583120789700934758902213,
  756769898583126659100916191402576,
  756769908583127295600713637507918,
  756770688583120720530836656302367,
  756770748583129971110930746702799,
  756770838583133454050965462602701,
  756770848583122951950707816705811,
  756770868583127103240844256202754,
  756771678583118867330974215802009,
  756771698583128544291039649802019,
  756771708583131560580985065602879,
  756771738583127227380904182602342,
  756771838583128983261030746602048,
  756771888583131864250923916502593,
  756771908583122951320682258503464,
  756772658583125022650947925002683,
  756772688583123265730681858403243,
  756772758583125103420820307903150,
  756772788583117520410981195302106,
  756772798583128131001015432302639,
  756772818583126846540906403702313,
  756772838583122913020999518802045,
  756772848583129786450865001702783,
  756772858583133599770884913803179,
  756773678583129803380581358802238,
  756773688583131884650882708302869,
  756773738583137837000678264205947,
  756773788583132051670852044003204,
  756773828583127068810907740202321,
  756773858583136256350955219002800,
  756774748583133368930878645103279,
  756774828583128519431021362402316,
  756775658583126754820818773503202,
  756775668583129287790997671203217,
  756775678583137838810896085303799,
  756775708583121993970962219902310,
  756775738583123721841001369302067,
  756775778583124307130894880902173,
  756775788583137844140833713202899,
  756775808583132736340844446903226,
  756775868583126629470925824102550,
  756775908583130391201047164102567,
  756776698583131399870981265102791,
  756776718583126164970596340502714,
  756776738583134618030912617402822,
  756776758583125543020810678103615,
  756776768583120596640836371402321,
  756776778583138121040564884402291,
  756776828583123131400644730301818,
  756776838583136683880570168702176,
  756776848583125225370990325102749,
  756776878583117980800972390602071,
  756777658583124213830608961902077,
  756777728583129995570970910602815,
  756777738583130047360917142702754,
  756777828583125310280678080708678,
  756777888583137175310915011303095,
  756777898583133962210892539902837,
  756778668583134732800837263503193,
  756778678583131020770866365303050,
  756778728583133370671076255002545,
  756778758583129554030823467303486,
  756778778583122322650757257405295,
  756778798583123973510623532702650,
  756778808583131080990775303905682,
  756778858583127673690845141303002,
  756778878583121651600829261902470,
  756778898583128747480702371706555,
  756779688583134513250709636507102,
  756779698583137771890631628804318,
  756779708583118221120993849602008,
  756779738583118343240993092302006,
  756779778583121846760805933403697,
  756779788583133208171084923402346,
  756779818583136705660874943603279,
  756779838583128816090753142708187,
  756779848583118461520807761102474,
  756779858583128805220877762702889,
  756780678583124267271012789102098,
  756780758583126659581036737102020,
  756780778583123890160617507202097,
  756780828583132893340735247707347,
  756780838583128574000898349502413,
  756780848583122361070825629802854,
  756780858583128150210593483103325,
  756781658583130483420954331302894]

/-- Rows 2801 to 3000. -/
def rows14 : List ℕ := [
  756781668583125729570831797502984,
  756781708583120451550921212602095,
  756781778583137825110873061303327,
  756781878583124710531000351702239,
  756781888583131685431100066702068,
  756782698583123806031012689502032,
  756782718583120328890984810602041,
  756782798583126106940604016602197,
  756782808583117777000824866102044,
  756782818583123126980627120702331,
  756782838583122033110835973402449,
  756782848583123169840881069202184,
  756782878583128369580983983002981,
  756782888583124923840913953002425,
  756782908583130997810852450603274,
  756783668583130311640798347704414,
  756783718583122511170950546802397,
  756783768583125334170592617102250,
  756783778583125359660807985603922,
  756783818583131027620856338803300,
  756783868583125949170949062503880,
  756784668583138613450676179805854,
  756784748583123639350948450803161,
  756784758583130573080899261202684,
  756784898583119634030968921102042,
  756784908583124970611016278802148,
  756785668583123974610989981902192,
  756785728583125957260832307102916,
  756785768583128094970918769702388,
  756785838583121823810723662406024,
  756785848583133732300763704207602,
  756786718583129070880953162602896,
  756786728583126901320585821302230,
  756786758583126259530884316202716,
  756786788583124420560769138906216,
  756786798583134503480567089602246,
  756786838583124376730766680906295,
  756786888583135304180947141902669,
  756787658583134779880903244603277,
  756787708583120223840868494802017,
  756787738583131826340896669702708,
  756787838583125081490875678402315,
  756787868583122194910981223602112,
  756788698583126792971014979102503,
  756788768583122667560644748202004,
  756788798583120359300845822502245,
  756788808583129194550602555406697,
  756788858583121211870957569102175,
  756788898583130215591031414602347,
  756789798583129510050970174402684,
  756789838583131156750751788408156,
  756789878583129392900828429603208,
  756790688583130873410799906204502,
  756790718583132073641039007802833,
  756790758583135676050581175902150,
  756790768583124463510950587402647,
  756790848583118527020801707702599,
  756865658583128720421028117102073,
  756865668583119172550989222102034,
  756865708583134037140899148402919,
  756865718583124851490632021703927,
  756865768583122851320831365502487,
  756865788583126578201006619302571,
  756865878583133287651090650602322,
  756865898583129895110957539803009,
  756866788583122557290970150802309,
  756866818583132409310892844803076,
  756867658583128842391029631802015,
  756867828583130841050951372102842,
  756867858583124662440930548402592,
  756867898583128706770928702702473,
  756868678583127773160800279804594,
  756868728583132893741067475202827,
  756868748583123152300831466002611,
  756869678583129827100911254802682,
  756869688583119072410987073702079,
  756869728583133277800882538003157,
  756869788583129895800753039207431,
  756869818583124046210855924302355,
  756869848583132417960969837602626,
  756869878583137976920625687904210,
  756870738583131339920955642702707,
  756870878583122915720829740302607,
  756871768583121334890704909506173,
  756871878583132799110746060606932,
  756872788583121330590945383502401,
  756872848583126031120774535905991,
  756873748583133735790688922108229,
  756873758583136804930771922304592,
  756875668583131927110912929702915,
  756875758583132490071007226902693,
  756875828583121301780845938202348,
  756875888583125962590961206202833,
  756876678583124447241006269402133,
  756876708583119367450792120903081,
  756876728583136842450877797103428,
  756876768583133516170902283702980,
  756876788583135266130674475107241,
  756876798583125752810607600102314,
  756876838583135623530588265602247,
  756876908583130280700968763302945,
  756877658583122180280691019104704,
  756877788583122263020722715706314,
  756877798583128716830868276202909,
  756877878583129614221029875502789,
  756878768583123460790979564502422,
  756878788583124728460951235202710,
  756878838583131989610846128903276,
  756878868583130193780924003702697,
  756879868583129139301045138902028,
  756880658583131894030917464502758,
  756880718583130212150670456306348,
  756880768583124993421020123702137,
  756881728583121470100971336902257,
  756882738583120837980866622002202,
  756882776765136006950962461402668,
  756882798583127141480722366508685,
  756882848583119380860790665202999,
  756882858583136621720667903506245,
  756883778583131523370863228902957,
  756883868583132573421022817702662,
  756884658583129386190674830206759,
  756884718583131132510915570702632,
  756884768583136829570841103703396,
  756884788583122545960862495702179,
  756884798583123208960828022102642,
  756884838583120405490935236602023,
  756884878583132202330966287302646,
  756885658583123949040836050102698,
  756885678583124480010820400203113,
  756885718583121468890703861106154,
  756885728583131735510963354202669,
  756885748583131174771010924403817,
  756885888583125850140779830405705,
  756886758583127579850952249403022,
  756886768583138120420810852303455,
  756886788583131615360894066002753,
  756886798583128147460574408802002,
  756886808583133990270842180603623,
  756886848583123686830679037303478,
  756887728583120073310844451902152,
  756887838583118402060984277902000,
  756887858583128555640972522602546,
  756887888583131034260724951608520,
  756888698583126783660900590802305,
  756888828583131368691065092402458,
  756888888583134989980838169403082,
  756888908583127025010664827204884,
  756889668583123060100997161102056,
  756889768583130330251048745702394,
  756889828583125990440905861102338,
  756889838583122438960801411703789,
  756889848583136724980879525102610,
  756965718583132713590860789503133,
  756965788583132055460750604606774,
  756965828583130736400809928904131,
  756965848583137398950597971503249,
  756965858583134859290885072802913,
  756966718583116447230818732802075,
  756966838583132440510861267203121,
  756967718583126261351038158002012,
  756967808583120371110941988102069,
  756967838583133891210756784706174,
  756967858583119951490798225004372,
  756968678583120403530824265402761,
  756968698583126020351034302502020,
  756968718583129385251037095802030,
  756968748583130369890961725903123,
  756968788583121295380940937302361,
  756968858583128535820582136002068,
  756968878583124931040621628104302,
  756969688583124767060653663602983,
  756969788583132887321077291202488,
  756969798583130041920721066908421,
  756969848583123184120932136402587,
  756970678583134739660761339805190,
  756970688583119618330848356102032,
  756970758583134884711077651402930,
  756970848583132618780904031703086,
  756970878583132013790856530603048,
  756971698583129641030730682408540,
  756971738583120661340934773202191,
  756971808583118704310795195002805,
  756971818583133107130852883003205,
  756971848583127329390826115903277,
  756971868583135926980907239503642,
  756972658583126995130781158305622,
  756972798583125250210983927202847,
  756972828583127807620923047902386,
  756973758583130016530749500807130,
  756973878583126539710904002602295,
  756975658583130806290558833502007,
  756975778583131720900939806102778,
  756975788583128893011001373503987,
  756975798583130819080641943807140,
  756975818583126850810951398802963,
  756975838583135278180683508207383,
  756975888583127680350940674302775,
  756975898583123307830930669602699,
  756976658583119605840836770402184]

/-- Rows 3001 to 3200. -/
def rows15 : List ℕ := [
  756976688583123213940871812402277,
  756976758583125438210806057504002,
  756976778583132154661030983502954,
  756976788583137031360594566903763,
  756976798583137828360881593803455,
  756976808583121801540736001505958,
  756976898583129308820651643808259,
  756976908583132109431020002504124,
  756977778583131833120694410309285,
  756977808583128325420838070003208,
  756977848583124081040619623302296,
  756977868583126692611025123202127,
  756978688583126355530820853603307,
  756978768583128521730909084002534,
  756978868583130726200659570106237,
  756978878583132593000920582902743,
  756979758583130459620885639302671,
  756979808583129163790970641902660,
  756979838583126804080856065203255,
  756980718583130870710838915803183,
  756980728583137304360604760603275,
  756980778583134913391129811002045,
  756981658583127779280831801403378,
  756981898583125013650993730502679,
  756982738583132076650998156002733,
  756982828583134795991088305503245,
  756982868583119978500809081103617,
  756982898583136315710945321802869,
  756983678583135720820928880502609,
  756983708583121394440876940002112,
  756983788583128797401039280402072,
  756983848583133414730852517503319,
  756983878583137255910588098004226,
  756984668583133425370918653002887,
  756984678583125936671024468002053,
  756984728583135784340834554603025,
  756984788583122419060811904603464,
  756985708583121958180948715802285,
  756985718583134135450567808502374,
  756985768583133647190633569104431,
  756986668583119054880990420002010,
  756986778583137423960874955603378,
  756986858583130358660850790303150,
  756986868583128030650924640702418,
  756986878583131270680689526709143,
  756986898583129526341042775102070,
  756987668583131680301090360602080,
  756987758583128064890827236103533,
  756987788583125065441029517102018,
  756987828583130675381058205502018,
  756988888583125776780996897002732,
  756989698583129825540937024002823,
  756989708583124607371014158702133,
  756989818583119935220843549402137,
  756989878583114556050982332302002,
  756990708583128263541025475402085,
  756990738583131204100900261902858,
  756990778583122207770968685402304,
  756990838583134789380914332502813,
  756990908583129733040857232303036,
  757065708583127135041033866702012,
  757065778583127755950895685602947,
  757065828583136932870831838902902,
  757065848583126783210602673202335,
  757065898583124984351011129902189,
  757066718583125131431010557202242,
  757066768583134331460866819003060,
  757066828583131386820695837209034,
  757066898583130188050828308003479,
  757067728583126734720601751602277,
  757067738583127412311024692202237,
  757067778583134829050865292802906,
  757067838583128683000752379807838,
  757067848583136665830595422203370,
  757067898583124946140892251202249,
  757068758583129409601026195602303,
  757068828583124360280810106603255,
  757068878583124310060988860702577,
  757068898583131021770963338502813,
  757069808583132239940904098902859,
  757069838583128197930896150802433,
  757069848583131455780834713003203,
  757070658583126014571043265502013,
  757070678583123361680954214402808,
  757070768583131059020880183602799,
  757070778583136289290838377403182,
  757070798583129814890959348502823,
  757070848583128179490950874602803,
  757070908583123455900682659103394,
  757071858583125039180949797802859,
  757071888583128539160962485702913,
  757072828583138526620569752702113,
  757072858583121587560696329606719,
  757073718583131050601015791903516,
  757073848583132557731082345702348,
  757075658583133678300878128903276,
  757075768583131370051001366603540,
  757075788583126699231030894702041,
  757075828583130272680934311102861,
  757075838583134629420937940802633,
  757076688583133779140915138202808,
  757076718583125131220683210809011,
  757076768583116076950998334602009,
  757076798583124185351002660702146,
  757076808583126286590874031402719,
  757076868583129375920850816102772,
  757076888583129494350612434205963,
  757077698583129085531032351802150,
  757077728583131667331094612002130,
  757077778583130341020761897906569,
  757077788583126741090717600707505,
  757077898583116580010981289102017,
  757077908583130595380824288803636,
  757078668583130083420844042602984,
  757078768583130462300749826007016,
  757078848583132972730962565402782,
  757079658583128658280915429102473,
  757079688583132547630857942603157,
  757079698583128965570843219303078,
  757079758583130836241073609902067,
  757079778583128954150676296106988,
  757079848583130557280558616202392,
  757079908583137786560863467503348,
  757080758583132570010951862702891,
  757080828583117497260996206302023,
  757081688583125421420980628303078,
  757082718583130734621065782802082,
  757082728583128504380933537302792,
  757082738583129048680832293303063,
  757082778583133649320855748803162,
  757082828583128917291017413402709,
  757083688583133572620832463103429,
  757083698583137597510842249703277,
  757083738583124656690815978403188,
  757083758583127804400852306302918,
  757083778583125333610856185802469,
  757083798583134936251069036002228,
  757083848583120920120770732205011,
  757083858583124483330757827806165,
  757083878583130664460886706102724,
  757084718583129794010754347107512,
  757084758583127908560940202002755,
  757084848583128841000880001302886,
  757084878583122830180826375202709,
  757084898583123778690954699102841,
  757085768583123871060620151902096,
  757086698583137288221116789002988,
  757086888583127351711015593102417,
  757087658583130962690947873102815,
  757087678583128377980915778102436,
  757087788583131195581053752102421,
  757087818583130207621001619303228,
  757087838583122572510826903402700,
  757088698583116197580998191402013,
  757088898583133240630863730603230,
  757089698583125200900906044102436,
  757089748583127520891032288402024,
  757089778583125051830934336302984,
  757089868583126013190858280003251,
  757090718583121676520967253702365,
  757090738583131190820965978602752,
  757090898583133356401036052902475,
  757165668583128924800620306306700,
  757165688583123965840938989302569,
  757165708583138405830826163902824,
  757165738583129171821028281002539,
  757165798583119450050897389402001,
  757165838583128830430978313602566,
  757166688583128357860811426403887,
  757166718583130930900895635102764,
  757166788583122899170672802802858,
  757166828583132184531065915902739,
  757167678583134357050744561006365,
  757167758583127939250792771804891,
  757167778583126299860845204002733,
  757167788583125942990678431708609,
  757167848583131691670855649403230,
  757167898583126187120971770903608,
  757168668583134757960844412003047,
  757168748583122448690821801202778,
  757168778583132553851079825302955,
  757168868583137143390751864504456,
  757168878583133971740955171302776,
  757168898583127229790978725104304,
  757169688583128684061046351402050,
  757169718583137613930624557004376,
  757169798583128886720961162102958,
  757169858583123518060676997203071,
  757169868583126432330985730105180,
  757169898583134529240719187905933,
  757169908583129577890941953602804,
  757170658583137494200687948905526,
  757170688583129793060942637902895,
  757170758583137959250828188102845,
  757170768583133335671063913202328,
  757170908583131326110855496703361,
  757171698583123309601006737502039,
  757171708583130876130782612805424,
  757171718583122392540852798802365,
  757171738583131714960872574603008]

/-- Rows 3201 to 3400. -/
def rows16 : List ℕ := [
  757171808583130711180936170402738,
  757171878583138216410733781904294,
  757172718583132095381093238802011,
  757172778583125832190925525102768,
  757172878583135648150846770603393,
  757173678583135942630638665605310,
  757173708583118058520982421302145,
  757174848583129134970714556606858,
  757175748583131623210997772503400,
  757175848583125858920964621203014,
  757175898583122672040829036702627,
  757176688583129374720782949205656,
  757176698583123661240828005202845,
  757176728583123496870890179102131,
  757176828583135014500952829903328,
  757176838583119273510851409302006,
  757176878583127029460940376402715,
  757176898583128352690863108902822,
  757177748583126613920852614202830,
  757177858583124840500976514103047,
  757178668583130091020740738210203,
  757178678583122678530773346905315,
  757178708583123841430901914802208,
  757178718583132916510652260505728,
  757178848583125177370720897708537,
  757178868583119690560977194002152,
  757179758583125855240825825903068,
  757179788583131325031079519702008,
  757179798583129223750589892405152,
  757179868583134679180952651703158,
  757180728583129340000856915602777,
  757180738583138298810657323304977,
  757180778583122704280829531202587,
  757180848583120399900909227702027,
  757180908583137214680864868103355,
  757181818583130750140972715503224,
  757182668583134493820918663402694,
  757182688583124248160978326802631,
  757182698583128841180906235402541,
  757182708583137087400574164702302,
  757182738583130979920816852403847,
  757182758583121079920821649203015,
  757182788583132801980778188105562,
  757182828583132876630944578202793,
  757183668583125334691020205502110,
  757183728583131525260941983002827,
  757183798583126099261000409502926,
  757183808583124882890977713602963,
  757184668583134045471042742002690,
  757184698583130923450798485404559,
  757184708583137469340686161705677,
  757184718583135796760873317402927,
  757184828583123459290914087102264,
  757184858583120685900823220902790,
  757185678583128532440730549109678,
  757185808583125508270711988908472,
  757185838583130635820938321302812,
  757185898583126693130784932905123,
  757186698583128153501018317702454,
  757186768583124267070961620703275,
  757186818583133031861018200602913,
  757186848583123078870839348402535,
  757186878583128832450854359203090,
  757187668583131307080949265502880,
  757187798583123499130899119802162,
  757187828583136224420823546403266,
  757187838583129512220726858407916,
  757187868583129945120992402302648,
  757187878583125455061020287402134,
  757188898583130456250753677606697,
  757189668583120174740830193502485,
  757189728583124749900976150302955,
  757189738583123726320833274302749,
  757189768583134759000859139902992,
  757189828583123414720676166602968,
  757189898583131621340925782902592,
  757190728583121409280929525302259,
  757190838583125159820929393902685,
  757265668583124124500920020902442,
  757265688583132923110736829707370,
  757265698583129731110885547602773,
  757265708583127518450574929502066,
  757265738583131960440943987702824,
  757265798583129366390954689402633,
  757265888583125748220845814802627,
  757266678583138771650784588303649,
  757266718583121270440907397402151,
  757266738583125647501001018602673,
  757266828583124998870809456203564,
  757266868583117354360812575302663,
  757266878583133646000896537202938,
  757266908583125508910879811902632,
  757267688583134864740856139303060,
  757267798583138756940830516502819,
  757268678583120527930895748502045,
  757268698583130446230806611204313,
  757268738583125215940951651802874,
  757268788583130486700727658908602,
  757268798583119364040808149302930,
  757269698583124585880893223802242,
  757269708583128727701024812302192,
  757269718583120266790981879102087,
  757269738583136020000773386104705,
  757269818583130575290777226405730,
  757269838583128655860570987602278,
  757269908583121620580886941002272,
  757270688583131731641073501902018,
  757270708583125034301004937102376,
  757270898583129620940939108102822,
  757271828583129706721022596202704,
  757272708583125890080795897804394,
  757272718583130853180945338902806,
  757272828583123922470616566602066,
  757272878583124040600844580802571,
  757273668583137391680871522103353,
  757273698583134367281084465503074,
  757273708583131140420680157906789,
  757273718583129078310863206902834,
  757273738583124580610656350102781,
  757273798583135549510570406002204,
  757274728583130155340824078803466,
  757274798583126322970603681702244,
  757275658583125947270901690302255,
  757275838583122342890897732702342,
  757275898583125734990986027603189,
  757276668583129351300947415502973,
  757276678583129387070801687204230,
  757276718583130168570993486903195,
  757276778583132793670938339402603,
  757276788583136608410680023105877,
  757276828583121143560822838602924,
  757276888583126760430991751904693,
  757277788583122846230738753606093,
  757277848583123730740629708603512,
  757277898583125029140827684203087,
  757277908583130090321014794103163,
  757278668583128249110930375902529,
  757278688583125980890648646904492,
  757278828583131590000846572203231,
  757278908583126357261014641902527,
  757279668583122678690767741305661,
  757279678583129185610964565002977,
  757279698583121059820972213702186,
  757279788583134392410817585803289,
  757279808583126661260924949402573,
  757279848583124473030868937302540,
  757279858583119639110847146802045,
  757280788583131067051062842402439,
  757280848583132729210867737203176,
  757280898583119790830850431902034,
  757281718583127155550786254605133,
  757281778583136969990560535802018,
  757281858583123530040974750102498,
  757281908583122755210834697302447,
  757282738583135825350607330202644,
  757282748583125374891012623802202,
  757282768583116240380823414302036,
  757282798583126269940868462803365,
  757282848583120442080933101302038,
  757282858583128688970831920103480,
  757282888583124851760776683305785,
  757283658583120379490905454302022,
  757283668583127808960914405302396,
  757283688583125608700822935503193,
  757283698583125230531043780102017,
  757283738583130614380815663503961,
  757283808583127947471001578105792,
  757283828583133363410766076405148,
  757283848583115478510996035602006,
  757283868583124652790932179002629,
  757284728583128547570613572806215,
  757284768583134361200953237503150,
  757284798583130958881077396902056,
  757284838583128371650974299402828,
  757284878583128418390974990602568,
  757285658583124688520933130002685,
  757285708583129440530926768402589,
  757285768583136117181122028102489,
  757285778583119574950893397402010,
  757285848583128074210821289103543,
  757286678583126855380925357402564,
  757286698583128417000692859006443,
  757286788583131256051071117502014,
  757286828583138544050702272304590,
  757286838583124396720998776102364,
  757287688583127662040578702102052,
  757287798583116007050997559802009,
  757287818583136454720701366706311,
  757287868583130822351071283302081,
  757287898583128593141022818202337,
  757288688583122219050992994702019,
  757288708583133350570916033403070,
  757289658583131674791097080902055,
  757289738583119891810821229202597,
  757289828583136019630885516303216,
  757289838583128852840807237003998,
  757289878583123823351008740002034,
  757289888583133433910961276702601,
  757290688583126083250915350902496,
  757290698583137295970784145003813]

/-- Rows 3401 to 3600. -/
def rows17 : List ℕ := [
  757290768583130987261039962603603,
  757290828583120725170885219402039,
  757290888583136622370866858503228,
  757290898583131776560992951602924,
  757365668583127607270827265103371,
  757365688583128944831025253302313,
  757365718583133109541010311802589,
  757365728583119987890846421402097,
  757366778583131190230763117906926,
  757367768583130715140849694002994,
  757367848583127635020825540003333,
  757368658583133511490679379006744,
  757368718583132334890845501303245,
  757368738583130632831008873103405,
  757368768583123495350893210902126,
  757368808583127164730842234402825,
  757369788583133025560774860905333,
  757369828583121739670869005402121,
  757370658583132474670867248403137,
  757370808583125166270654397902701,
  757371778583125251480660519005449,
  757371818583131536180924723402620,
  757371888583125934221009274002512,
  757373668583132459080880523102978,
  757373898583123782640971788402645,
  757374688583131737781078166702247,
  757374888583129779330897552802624,
  757375718583117557180819631302131,
  757375758583131065790921452302630,
  757375868583131697650864341802910,
  757376698583121078590823109602848,
  757376718583129678141043798602079,
  757376778583124261891020896902032,
  757376788583129419360961907303077,
  757377768583130514850783741205275,
  757377778583116426320985951502036,
  757377838583128754700945311902817,
  757377848583135810520918848603182,
  757378688583129706400936791802797,
  757378748583122088790829010802685,
  757378758583121783020767922504822,
  757378768583138572850865873403185,
  757378838583126584460643044305133,
  757378848583126133060997708602969,
  757378878583125014270692621206941,
  757379668583128052030960164603019,
  757379878583131638940884449802668,
  757380748583125478190988319702875,
  757380768583122842510644207101946,
  757380848583131238661030655902529,
  757382758583130100730874558002966,
  757382838583131820230945590702925,
  757383668583133373580842402503537,
  757383778583118296250985583002082,
  757383788583138184100763454203982,
  757383798583125319531023785002093,
  757383808583130788641068875502099,
  757383818583135974980938177502685,
  757383878583134353350901581603021,
  757383908583129243910956059902856,
  757384728583132497191035324403099,
  757384828583129249210777114706219,
  757387658583123317670683271303382,
  757387688583136527580898557403230,
  757387728583130761020941920702796,
  757387738583133958521102823302074,
  757387838583119823100843247302111,
  757388688583128839510851084303087,
  757389758583125667110621666104455,
  757390658583124607370599198402671,
  757390718583133994421090451402454,
  757465678583133599230692582908451,
  757465788583122328190899222902346,
  757465838583120893270859652102213,
  757465858583126330250958321703180,
  757465888583120496220983000302030,
  757466828583125828800893487702262,
  757467848583120517150802356103749,
  757468688583122747700845037702434,
  757468788583137331200730394204662,
  757469708583128595740878361602549,
  757469828583132727880655342006053,
  757469838583121555210981087702108,
  757470758583130648361061832902013,
  757470888583123902270926779702482,
  757471718583127241391032791602049,
  757472878583132148141007318603723,
  757475658583120290280923197602017,
  757475748583136841890833285602917,
  757475768583127587870966817103381,
  757476788583127157810854927002981,
  757477828583135893540867279203012,
  757477838583136935650813129003498,
  757478888583125534291016051002165,
  757479848583131514860918202302581,
  757481708583125377780992886102690,
  757483798583121874610847774202677,
  757483848583130323661011577904284,
  757483868583125443700851972202528,
  757486768583132628080909448502808,
  757486898583128372020942621202474,
  757487718583125870190815792403548,
  757487788583126175050931109102495,
  757487898583122467030830885102713,
  757488738583122703530850511802415,
  757488788583132256100955333503001,
  757489718583133991030854381703067,
  757489768583122639970983993702188,
  757489778583131921600954069003182,
  757489798583129085121024393902389,
  757489828583130904820823761903670,
  757490738583122704860999876502017,
  757490808583124459800955397103535,
  757573678583126232220588725002370,
  757576838583136122640570961002020,
  757578668583127002590674647406868,
  757665658583128074860773104405706,
  757665708583130408180930609602605,
  757665768583117989240979661302142,
  757665778583125881440737214409171,
  757665788583132781910954150402861,
  757665828583131302690743126209284,
  757665838583126076340648286204141,
  757665878583124578550815828503109,
  757665888583123935850615806002126,
  757666668583123682360781709605282,
  757666698583130265211005790903185,
  757666708583131132220793097504776,
  757666768583127053940790435604885,
  757666798583127655190873478303321,
  757666828583123597260849359102440,
  757666848583124604261009326702126,
  757666888583119118360845378002025,
  757667718583132248990830199203431,
  757667728583120128730867720802015,
  757667738583133569961085719002545,
  757667758583129801070970580202744,
  757667818583120184060974098802201,
  757668748583130616041057481802023,
  757668778583133959280935865502645,
  757669668583133625841076879402603,
  757669698583118828830981839102077,
  757669778583135922740778877904571,
  757669878583134042241097119402288,
  757669888583128028380953856302979,
  757670738583127077631036236002011,
  757670758583121234280852425602296,
  757670848583120195700880063902042,
  757671658583130769171061158802022,
  757671668583123826200618384602060,
  757671678583123011930949208402693,
  757671688583135295540619880404717,
  757671708583122875400656071602422,
  757671858583131805840681523606457,
  757672668583120877330833777702285,
  757672678583125287710903244002312,
  757672778583128917130586459902121,
  757672818583129756120973340302868,
  757672868583131135281025707902556,
  757672878583121884230984287602045,
  757672888583128048130764766306238,
  757672908583126017641016636302369,
  757673678583129281130763326307374,
  757673848583124722510877619802262,
  757673858583123919990776115405616,
  757674708583135101240854876103140,
  757675808583134270131060316503747,
  757675828583124718600991368902486,
  757675858583128009041020224802493,
  757675868583132168370596009606733,
  757676748583134529170657827807072,
  757676788583123558200776275405514,
  757676818583123632700882446502270,
  757676828583129266390562391702572,
  757676858583127486140856858103009,
  757677798583130167940748291407052,
  757677838583123152310909362302575,
  757677848583132169210582595906095,
  757678658583116591210999090202014,
  757678678583122584480832757602500,
  757678688583132811190712645407586,
  757678758583130862990832383303219,
  757678768583136158670907835603704,
  757678788583131680420986025602626,
  757678808583126983480974624904684,
  757678828583133212590898128302717,
  757678838583130119931036959502403,
  757679768583130061920614271605904,
  757679778583130134511047295702301,
  757679848583131608040918953502680,
  757679858583128225430943305502546,
  757679908583127082050959148003212,
  757680678583124665730595248502088,
  757680828583131341380978141202793,
  757681758583124805020972913403013,
  757681828583128216390809149004011,
  757682688583117556370805406702507,
  757682708583124911410878345202311,
  757682718583135365401114623102208,
  757682748583132783390838073403196]

/-- Rows 3601 to 3800. -/
def rows18 : List ℕ := [
  757682798583122903061002157902012,
  757682858583122284580730679006456,
  757682898583128615690856561302915,
  757683668583122337230713028406289,
  757683698583133893230887411502653,
  757683708583122343000950034902232,
  757683758583132756800755869606964,
  757683788583127066590591284302119,
  757683868583126226690649531903870,
  757684838583124682470807261803382,
  757684898583138510870690000705160,
  757685688583123259960824186103047,
  757685708583123522980676014403084,
  757685718583125500290931935002717,
  757685758583129092720955805102483,
  757685768583121678400908209602238,
  757685778583134890840881229302895,
  757686748583119526130847539302044,
  757686758583127693940581706002400,
  757686768583126778741022055402329,
  757686778583135693320695449306660,
  757686788583134630450867649202960,
  757686838583125664310748511708877,
  757687658583132347850937399502666,
  757687668583127850460995935104302,
  757687678583129018660847799102832,
  757687768583131117300650678407772,
  757687778583132710911088711102148,
  757687838583136373760629724203438,
  757687848583137053000705304406170,
  757687868583128767990923988802430,
  757688768583135952600856489203122,
  757688788583130797050802167504413,
  757688848583128966730856265603004,
  757688868583129228120736816411927,
  757688898583121645250834863202544,
  757689728583127317881007941102938,
  757689798583128345530817713803691,
  757690688583131821571080947302237,
  757690858583123974430960287603061,
  757690908583121111890818030303215,
  757765678583122822970964290402437,
  757765698583126993980598808302253,
  757765708583121959410777944804871,
  757765738583120830860948102602110,
  757765768583134849481056636902790,
  757765788583133585340634692704537,
  757765798583124176071006610502092,
  757765878583126607440900066102295,
  757766718583135550120795851703715,
  757766768583134272830937451702621,
  757766798583122444810898963102326,
  757766838583133526820959107502668,
  757766848583125882830936227502615,
  757766898583129466910875677202867,
  757767668583121184690895248402413,
  757767678583128682190585994202075,
  757767688583135863710953560102740,
  757767698583127290800594793802156,
  757767708583117837390974673202014,
  757767738583129293330852706803026,
  757767758583130212530794006704583,
  757767788583122686020963393702354,
  757767798583118448330986776902096,
  757767878583133168630866722903213,
  757767888583130714330932331002676,
  757767908583125855901028184202076,
  757768658583119434900816173902674,
  757768688583122037340778911204803,
  757768708583126489560808058403970,
  757768728583127790510907521102411,
  757768818583124868280934426602756,
  757768838583134022910829090903716,
  757768848583130199381032214002310,
  757768878583131791570922389302620,
  757768908583135103130896898403470,
  757769668583124790371006280302220,
  757769738583122317720912436002297,
  757769748583127283870796437304529,
  757769778583125054590900238302341,
  757769828583127393080594190402191,
  757769868583129005490602414606726,
  757769898583132174800842042503116,
  757769908583124543010857919103079,
  757770688583130833090974716703297,
  757770698583116182890817537002106,
  757770738583134644330898058603277,
  757770828583132386220571208103335,
  757770868583127640531042356102047,
  757771678583131698040931761502655,
  757771698583123919120954678303068,
  757771718583135236800860091003028,
  757771748583131504621057309402365,
  757771778583122302400935900202221,
  757771788583135426060950782902686,
  757771828583121080490961905102294,
  757771878583129650671000812303248,
  757771898583129582610957717902957,
  757772698583133780950819484903304,
  757772758583129132390833207003057,
  757772768583129101930867996702779,
  757772788583132042910789357705260,
  757772808583122374120979149702197,
  757772828583128544710586864902096,
  757772848583132941761085604102241,
  757772868583125069150618395604791,
  757773658583115786100996851802008,
  757773668583138426160786197403668,
  757773678583135064490866421802869,
  757773698583130248680945940702937,
  757773798583126916110851125702808,
  757773848583125510670607989802421,
  757773868583129367041049175902085,
  757773878583132117010870759802974,
  757774688583120494360903488202056,
  757774818583133654220850084003446,
  757774888583129922231056995202082,
  757775658583134529820810393403569,
  757775678583129114960854047302759,
  757775698583132931290921024902723,
  757775718583133161630937491102628,
  757775748583126892770986414604558,
  757775768583125590460910802802434,
  757775788583121924170813997203388,
  757775798583125660740846333402612,
  757775848583134230160860772103020,
  757775868583121090560879272202079,
  757775898583116001760983258502005,
  757776668583118101280993388702033,
  757776678583124875190842132702770,
  757776688583132173330677033306503,
  757776698583131199230838823103051,
  757776708583128433420669869907039,
  757776738583131449090894729602590,
  757776748583123154310967496602384,
  757776758583138349010721066504280,
  757776838583136421720741033604630,
  757776848583135649371113072002408,
  757776858583122503700879544802079,
  757777728583127627170611498409128,
  757777738583125390800954347402858,
  757777758583131512751071687402103,
  757777768583134458560841619003180,
  757777838583124227060897088302162,
  757777848583123927420991887302252,
  757777858583130793121055806402187,
  757777868583135191760568518202163,
  757778708583126993930882770903181,
  757778738583123582260997900902103,
  757778778583135123220923555802625,
  757778788583130611420969286702993,
  757778868583125541830956156203031,
  757778908583121672710818526203299,
  757779668583120702310917460002219,
  757779688583127629740590399002097,
  757779808583133621540952556802755,
  757779828583126174200966171103313,
  757779848583138265250787112603716,
  757779888583135569020840293503138,
  757780698583122806270908747702456,
  757780738583127511630599548404254,
  757780748583125131830870860602923,
  757780798583131134041046184503916,
  757780828583128358790823110003497,
  757780868583134206621074322103165,
  757780908583130951020884858602734,
  757781668583130519700893389502707,
  757781738583125913971042992502014,
  757781748583129837070940905102862,
  757781848583136531780924243603419,
  757781878583122090660971174602202,
  757781898583126017840934712802543,
  757782668583129398331020022402557,
  757782678583125550310928128702681,
  757782708583120378070759745006849,
  757782728583124733231033312502011,
  757782748583132890340897518303171,
  757782788583125813310983848703270,
  757782848583130223980966409003021,
  757782898583126591160581433302257,
  757783658583123134630850243102404,
  757783768583124749020923829802550,
  757783788583133149140906589702887,
  757783798583136924840658934405205,
  757783808583134872260867616902841,
  757783838583134930031051506002215,
  757783868583131708551051980403403,
  757783898583119996630897182702003,
  757784678583132601540971626602580,
  757784728583114723520989416702005,
  757784748583128529830721072607759,
  757784788583129332471035775102022,
  757784798583129481270917103102722,
  757784808583131073201080746102006,
  757784868583126634000999741502941,
  757784878583134134200923162302651,
  757785738583130432471034248702489,
  757785768583121133560962809702292,
  757785798583133056560641096304996,
  757785848583131362300888455602547]

/-- Rows 3801 to 4000. -/
def rows19 : List ℕ := [
  757785858583130314471021210002560,
  757786678583121450840926441802419,
  757786698583134972640842855703034,
  757786738583127520200739469909611,
  757786768583134529531073862002732,
  757786778583134706781125192102096,
  757786788583128317820911332402480,
  757786898583131386021093799502068,
  757787658583127748390909819702472,
  757787678583133115820919613802745,
  757787728583137225660606735003185,
  757787758583126465600994461803247,
  757787768583122787420819357202974,
  757787778583133918350848906403410,
  757787798583129525570955965002650,
  757788658583125900220898454702242,
  757788708583122391360936268902171,
  757788798583132226530888322802833,
  757789708583122818140628553702427,
  757789748583129154290881744702823,
  757789768583134897110638979707020,
  757789828583123692521010684902024,
  757789868583129104910584254102062,
  757789908583129861870833667903283,
  757790728583136415260871911103076,
  757790748583122516360686668803892,
  757790908583130483460943130802859,
  757866678583122470560992695402037,
  757866698583122745520830315802491,
  757866718583119823510899627002003,
  757866748583120388670923620002054,
  757867658583124704611025515402026,
  757868898583128336391029602802020,
  757868908583120702960929770302177,
  757869768583130039621056397102103,
  757869788583120357220981161102099,
  757869878583120052820899700802007,
  757870688583120506170923488302149,
  757870698583126683531038566902016,
  757870718583123295530626380902078,
  757870748583120520830930422202102,
  757870768583129435590612860305934,
  757870878583122785670825586402650,
  757871808583117700740826984102019,
  757871838583120606940930547202150,
  757871858583126937441036974202015,
  757871878583117706110825569402030,
  757872758583128276901035783802039,
  757872768583120341830924541702061,
  757873688583125675640622916104283,
  757873808583120231640983101802022,
  757874758583122829140643127201958,
  757874778583124685981029666302021,
  757874878583122803760911590402540,
  757875768583120421990931018402039,
  757875848583124919681031000202029,
  757875888583122864550628351902478,
  757876678583126364120600393302234,
  757877778583122530450914289502317,
  757879718583117884850819512602257,
  757879878583138141670565768502013,
  757880658583120350770926708902028,
  757881658583125348090901211502320,
  757881668583120564830921861702129,
  757881738583117513940821847502050,
  757881888583114572500982999002006,
  757882658583138195000573636102199,
  757882668583120383320985668402017,
  757882678583127418830588920602166,
  757882788583129858730801028704383,
  757882818583120625000928563902151,
  757882838583122567940628772402024,
  757883698583120715260929670002199,
  757883738583123249080605297602506,
  757884688583124108440608692002013,
  757884858583126805451039500602022,
  757885678583123017810613975202182,
  757885738583128142411035655302022,
  757885788583120470000926530602085,
  757885818583127428920579453802033,
  757885878583138351270573271702047,
  757886688583127844480856902602892,
  757886738583120699720928058302180,
  757887768583117641670826833302025,
  757888808583124300290638256304051,
  757888888583130208541048429302357,
  757889718583128497921026930802011,
  757889768583122636790653706202213,
  757890878583132157341090545602162,
  757890888583120680560930991702150,
  757890898583122710030627883202026,
  757965748583124822191023795802094,
  757965758583127719150577592802009,
  757965828583126684100582333502137,
  757966698583117258890991458302034,
  757966738583129213951052027702042,
  757967708583119178820977769402089,
  757967728583121584620852905002355,
  757967818583134875050920851302604,
  757967878583125566721029435902038,
  757968798583121914070776073305004,
  757968888583131629100810413404070,
  757969658583128687810924409202414,
  757969668583131929540949358702959,
  757969768583129116680791818805045,
  757969798583135309850873026302903,
  757970708583131129460840753103052,
  757970758583131977590825625003573,
  757970808583127715341025586502208,
  757971658583131117810782186405278,
  757971668583123460580991380802195,
  757971688583131188030679791806473,
  757971778583136850060906309002669,
  757971838583134680121045248002297,
  757973678583132560081044754903025,
  757973788583129840100794599004703,
  757974658583125550880813314803605,
  757974678583128853220852624303096,
  757975668583123217330626441202028,
  757975678583125405700824110503295,
  757975758583130522610939327002830,
  757975778583125675200840513102720,
  757975838583131406370776374405394,
  757975868583129148751018485402727,
  757975908583122970210971547802438,
  757976688583134953661113172302126,
  757976698583132234721016236904135,
  757976708583138097990744159303986,
  757976718583136310540881828003102,
  757976778583136976200570973502209,
  757976838583121410890691437605955,
  757976858583131457410826501003444,
  757976868583124986990902130702402,
  757976898583128724600918155302482,
  757976908583132684130880199703076,
  757977658583131313840840939202984,
  757977728583128245411019493002465,
  757977758583138470730604834703305,
  757977788583119300820988797802028,
  757978658583134082800882805602656,
  757978768583132474450813065504031,
  757978778583124029410730972406875,
  757978798583134025730629835204193,
  757978808583134578740559403402160,
  757978848583124054940623838302944,
  757978888583126394431039798002016,
  757978898583123357900811797703275,
  757979658583131228720875009902840,
  757980708583115912650997113302008,
  757980768583120567970879011302075,
  757980788583122959290957268702798,
  757981858583131590561085944402018,
  757981878583132054180892586002769,
  757982668583138020000871385003311,
  757982678583132995890839351203414,
  757982688583131968990920684702668,
  757982698583132561241077097102555,
  757982708583126887991037937502026,
  757982718583120062450861920802013,
  757982728583132267331081092103009,
  757982758583124828570877409902545,
  757982768583118542830986607402112,
  757982838583138712280570894202025,
  757983658583123102340850373502363,
  757983678583134443040965867402634,
  757983728583133985790914435702808,
  757983858583130077150969183902905,
  757983888583123095330904524502480,
  757984718583133657640844145903574,
  757984728583133414720557393702017,
  757984778583131110950875441802845,
  757984788583128859350925001002426,
  757985788583125236260825241903182,
  757986698583129478850583681902192,
  757986768583134780840849612803076,
  757986798583129040280943894802758,
  757986838583133160390893209802672,
  757987658583134127620867307003146,
  757987668583127748900928322402406,
  757987688583132193791088221302049,
  757987738583128545640847478702966,
  757987758583134708901101312502270,
  757987888583131035550960099402763,
  757988668583128314011048730102011,
  757988678583131486141068631202726,
  757988688583129498410952105403040,
  757988738583131336450933377502684,
  757988828583124200890607829002043,
  757988868583131304110868832802928,
  757989778583131412481014895203934,
  757990658583120743260787957704381,
  757990828583121284590942873902301,
  757990878583132633590960104202962,
  758065698583137922410577141102606,
  758065728583127053480912185202410,
  758065778583120080040944155902018,
  758065788583124255010686519707157,
  758065798583127458030578880102004,
  758066708583124182760880643602206,
  758066718583134665831065232302233]

/-- Rows 4001 to 4200. -/
def rows20 : List ℕ := [
  758066728583135704890895966303497,
  758066738583116683210998916202019,
  758066888583127560320974207203473,
  758067778583118000560978305902154,
  758067858583120518770902864902062,
  758067878583131516300971206802590,
  758067908583134333360909671102826,
  758068678583133022500888709702661,
  758068758583123868590956960103003,
  758068848583135695340611466303497,
  758068888583135595150573785302030,
  758069658583131408460870520002885,
  758069798583132625861029484202990,
  758069818583121391540764829504612,
  758069888583135374060852474603180,
  758069908583118959450814782002430,
  758070678583135202230560363502005,
  758070788583120219620943116202020,
  758071658583126932820685504406313,
  758071688583116910180980078602024,
  758071828583126058630894867102289,
  758071868583125625871026142002027,
  758072688583130475010985756202894,
  758072708583127125001034986102043,
  758072718583129739690806790203907,
  758072728583123455791004731702026,
  758072758583116790660993059402018,
  758072768583129860811047248102036,
  758072788583132904630974646702650,
  758072808583134051290783941804207,
  758072818583132664481091458202061,
  758072848583126329360916131702580,
  758072888583123440860679702103135,
  758073658583130673710902861302660,
  758073668583121476080906629302297,
  758073698583117923410973092902010,
  758073728583132901710673992206452,
  758073768583116173000826501202019,
  758073778583122840510951094302902,
  758073828583134384890797061803742,
  758073848583130486730997480903204,
  758074678583130807070998374002901,
  758074898583127983380906397202400,
  758075668583129337840985565902858,
  758075688583136906720849188903443,
  758075708583135959410895759003500,
  758075868583118659630833141502030,
  758076688583130451440950037902926,
  758076758583126628360867655702938,
  758076788583135575770951931102720,
  758076828583123552460937478702485,
  758077668583138947500827566702795,
  758077688583124630590618869404543,
  758077728583128847320971523502663,
  758077808583116253260998856402019,
  758077858583124356750901057402221,
  758077868583130955740840804903202,
  758077888583132220341076864702418,
  758077908583125803581032388602039,
  758078658583132804140701751709086,
  758078678583126741500829001303007,
  758078698583130077511049797402121,
  758078778583135564820863889202979,
  758078788583135204091124265902266,
  758078838583120482910928093402121,
  758078848583130920860913683302666,
  758079668583125163161009772102217,
  758079678583124091710622095003011,
  758079698583121050110868061702330,
  758079708583126780810896753502331,
  758079728583132745710853454403224,
  758079858583131621911061079802165,
  758079898583134876010712007907092,
  758080658583125618500790061705245,
  758080708583127337690844937702899,
  758080798583131565550932623502812,
  758080818583129642780892164102710,
  758081738583136681221119544202534,
  758081768583120471450914682902017,
  758081788583133986900837004203736,
  758082668583125666100593644302836,
  758082678583124645760675712407042,
  758082718583129699970923223702654,
  758082788583121851460933835302451,
  758082798583131832480858347503014,
  758082888583123644820845455702547,
  758082908583124138120765845706078,
  758083668583130893391019085103948,
  758083678583136255960608665102410,
  758083708583132423791066975803194,
  758083758583127132120993131204105,
  758083778583133091321091659002100,
  758083788583121788710842937402423,
  758083798583127276080729383709700,
  758083808583123840680634825502477,
  758083888583118730390837379102014,
  758084668583127179271024879802193,
  758084688583134673021050466002474,
  758084718583126745020969594003864,
  758084758583132664650965668702980,
  758084788583119707010886529902008,
  758084838583127458440852677602950,
  758084848583127709160812531503952,
  758084868583126035370609302402442,
  758084878583130239071044372202309,
  758085668583128287130754899406726,
  758085678583129626580692540807957,
  758085748583123916640950521803289,
  758085878583136740720628777904556,
  758086668583132695400895518303024,
  758086678583132069831097737202008,
  758086688583131713841085650602055,
  758086698583125648300918025702488,
  758086708583128721590592401204585,
  758086718583126779531035440702023,
  758086748583124714440827758102968,
  758086858583130230210682675606497,
  758086878583124162400782740805374,
  758087658583125544360823545303299,
  758087678583136728720856165303295,
  758087688583138792220754708304250,
  758087718583121493790826816602592,
  758087758583132123330920928702647,
  758087778583133645861096739202077,
  758087848583137483330572286202444,
  758088698583122517440962325802418,
  758089718583124739160996504602575,
  758089778583131904241092634802147,
  758089788583127122500892844502467,
  758089888583126422740792502604918,
  758090818583135406920961791502670,
  758265678583132754390921796602674,
  758265768583123953890625480302818,
  758265808583134054030769337905204,
  758265838583117814590829068502004,
  758265878583128351570866542302936,
  758266688583122687320831235702660,
  758266698583132574660804261204349,
  758266718583133245090566441302529,
  758266768583130158340577456002349,
  758266778583124844850876946302587,
  758266798583117782140823054202079,
  758266878583122915720993546602101,
  758267658583134159160768788705279,
  758267758583120635830830102802474,
  758267828583131067340938095402790,
  758267848583133906180944833303055,
  758267888583135501760889942403238,
  758267908583124896051002360502358,
  758268688583130520340577051502502,
  758268718583130383571040219002344,
  758268758583131007030847332603044,
  758268778583134249510588382105077,
  758268828583137978210825991902913,
  758268858583125874451011980402435,
  758269688583135192780707319407763,
  758269738583124085230628461703570,
  758269798583132571940621066706053,
  758270688583132190230908800802742,
  758270718583118300830826727802056,
  758271758583134589720875054302780,
  758272738583135630290905134003624,
  758272808583125192810961282403697,
  758272868583127336510581774002133,
  758273678583127516641026764202167,
  758273688583129751650951499003140,
  758273708583128728230678961607301,
  758273768583129526790722606707544,
  758273828583123988890625841702764,
  758273858583128483630588919102141,
  758273868583123896430627293703535,
  758273878583133069550715273807525,
  758274688583128972131041261602064,
  758275688583134061521108916302056,
  758275808583118089130829466502023,
  758275828583125027050853798802451,
  758275838583131597680709177708760,
  758275878583125916960953049203664,
  758276688583136299960606915502394,
  758277698583133245081045770302504,
  758277718583124342770948405502644,
  758277788583128403291025388302211,
  758277898583132251740950381302941,
  758278678583125694340941496803032,
  758278688583119534950817067902762,
  758278728583135152700874572702996,
  758278778583123040330630766803395,
  758278798583129513850602307906415,
  758278808583132994250958532302736,
  758278848583137500470577831502032,
  758278868583123766640892418802140,
  758279658583127322241000160003175,
  758279678583133106881023122902559,
  758279718583126364610858896803358,
  758279838583135704120870438402923,
  758279878583123286090754631005671,
  758279888583138863480842999803059,
  758280668583129823330823398403537,
  758280688583135414010882243503107,
  758280728583123105710814403703123]

/-- Rows 4201 to 4400. -/
def rows21 : List ℕ := [
  758280748583131891020909144302781,
  758280888583136473600714486405491,
  758281668583133724540944834602990,
  758281698583125644100709260308742,
  758281798583125481210819956703417,
  758282768583135195740902748303318,
  758282818583133456420838193703363,
  758282848583138945980846457903074,
  758283768583128877580811882403862,
  758283788583122521460874116702311,
  758283848583133894920874930703317,
  758283868583129016640923390102462,
  758283878583116526490982299802030,
  758284788583126734170754887408352,
  758284838583129683390601184007050,
  758285698583125257340868984902403,
  758285718583138393450799699203548,
  758285818583125638620994771602773,
  758285848583133524881070505202787,
  758286748583122060590978424302195,
  758286768583130672851023664002819,
  758286788583126455470971096103255,
  758286838583126033010840121302638,
  758287708583134551060849113003023,
  758287738583125848101021014902159,
  758287768583131800080727898308813,
  758287788583131092280933795202711,
  758287868583120519430832935202391,
  758288698583133839650681957906858,
  758289778583136097150856310003150,
  758289788583122140140688206804416,
  758289868583133165220912692302833,
  758289898583124013010953926003040,
  758290768583130953410928185102698,
  758290788583135819880876218702989,
  758290828583125204900951957302860,
  758290848583129434940969704902725,
  758290908583126435661022857502256,
  758365658583131438440731573009012,
  758365678583128505200584992702024,
  758365688583122859440703573705176,
  758365708583125608400739038708348,
  758365788583122737120627956502017,
  758365828583128155400903005302538,
  758365838583123240590640393601915,
  758365848583119542750815144602809,
  758365868583122128750987812102051,
  758365878583136336870926008303221,
  758365908583136384580851896303287,
  758366658583124427500601462402013,
  758366688583124090730627496203157,
  758366778583133763170921412902754,
  758366788583131718750936806002799,
  758366798583122614390976225102327,
  758366808583125236880593497702212,
  758366838583130521690731300508878,
  758366858583133598330859054103107,
  758366888583138538350681185805443,
  758366898583128346021044833102052,
  758367668583131620200833740503325,
  758367688583123171910936856602569,
  758367728583132846901060662002378,
  758367758583127900670587536602030,
  758367888583126450500954074603545,
  758368658583130745440845815502971,
  758368678583133234451028734202425,
  758368708583128187000942512102501,
  758368768583123614720680800603510,
  758368777788122571570630156802526,
  758368898583137697630757989003984,
  758369658583137463800576922502433,
  758369698583122829460630187502388,
  758369708583117462250986528202063,
  758369718583130825381031337302450,
  758369778583122353040930049102166,
  758369808583122220290818188403321,
  758369818583119573610820819402525,
  758369828583128928720940790402583,
  758369848583128933510895691802436,
  758369908583124843690682053906827,
  758370668583118781740987440502055,
  758370688583133394100801527204032,
  758370708583137679200626686203953,
  758370778583133383891092858402244,
  758370798583127628720576065802013,
  758370818583126674731033964702072,
  758370898583132049750898868902616,
  758370908583131916641085041702440,
  758371708583127255240865994903268,
  758371728583129835070961486103051,
  758371748583119967420986492902010,
  758371828583119633210843424302082,
  758371838583134862360869648202820,
  758371848583124604180884215202224,
  758372688583128257371010970803201,
  758372768583133213630841633003419,
  758372788583137230980568431202273,
  758372828583134777040730122506021,
  758372868583122453850861651202257,
  758373708583126441271001417102693,
  758373758583126891980904344302315,
  758373868583129120700925517602540,
  758373898583131791520575345304648,
  758374678583127373730580580102062,
  758374788583124526180706172807736,
  758374848583121368770795024903919,
  758374888583135691480944222602669,
  758375658583137607530623183404461,
  758375708583119399350814133302691,
  758375738583132383670850206203250,
  758375888583126453750743193909091,
  758375898583131432880973416202580,
  758376668583132601060847578103488,
  758376678583130807440680230606227,
  758376698583134916870569927402214,
  758376718583126198690855108003193,
  758376728583135654190954727602641,
  758376738583123783810619397202035,
  758376748583121179030908035702280,
  758376758583134380211057867303663,
  758376788583128810410823540403288,
  758376798583128648500910358602573,
  758376828583123166610843802202489,
  758377688583131140910948428902834,
  758377698583127048980953789702927,
  758377708583128707130584199302027,
  758377788583135130770661200206043,
  758377798583124010980615429102177,
  758377818583130626911053247502105,
  758377838583123990190996322902182,
  758377888583124905000595395802261,
  758378658583123667800621261702056,
  758378678583131387141074921202416,
  758378728583125163440917821802473,
  758378758583122703400790512104430,
  758378768583125365540830571703073,
  758378838583126662910583814602085,
  758378898583131107720770062206313,
  758379658583120591160793525504140,
  758379808583125232381006045502461,
  758379878583124263770699811008415,
  758379898583133139650838123703448,
  758380658583124910390980377502800,
  758380668583135777890571362102058,
  758380708583134487140762080405931,
  758380718583117763180973663702007,
  758380728583122988940865908202218,
  758380738583129836900903135602597,
  758380838583124003890815005003019,
  758380878583133170720847878303339,
  758380888583119513860849439502022,
  758381738583131739180903152902647,
  758381768583127514420577476102005,
  758382668583126049140944635003025,
  758382678583125202560882602602264,
  758382698583125282410833230203024,
  758382818583117404620974343602031,
  758382828583123459300744526708814,
  758383678583123961700995184902242,
  758383708583119338550815190602577,
  758383738583121145230986006402019,
  758383788583132723581031110902647,
  758383818583135735110880744003232,
  758384678583135553940859306603031,
  758384698583134538430904634003110,
  758384708583123440750911511702332,
  758384748583129784570850930902826,
  758384758583130623090767333406038,
  758384768583128753900896208402604,
  758384808583134941160869322102705,
  758384818583131128640911936002653,
  758384838583128515280571873902128,
  758385658583117182020997685302018,
  758385678583134393640755869406932,
  758385688583125794210833437602900,
  758385698583134836920925752502724,
  758385788583133512240656962407320,
  758385838583128657700893402602463,
  758385848583123925111019206802025,
  758385858583128243290580430402062,
  758385878583136689160878996902674,
  758385888583132409190836023003098,
  758386678583122632420718347407446,
  758386698583130379790594225206149,
  758386728583125766140990343802965,
  758386788583122010610988356802042,
  758387708583131500811058692802491,
  758387738583123629500834122802745,
  758387798583126172310829131403000,
  758387848583130869280828904403505,
  758387878583122476050795305404380,
  758388768583128228320991260503820,
  758389708583129763800781996405411,
  758389738583125566970935574202800,
  758389768583125818370592542602630,
  758389788583134479060869839402920,
  758389828583133108201038738502421,
  758389868583121554090961031702403,
  758390768583128713590864480202870,
  758390788583124061270600814202050]

/-- Rows 4401 to 4600. -/
def rows22 : List ℕ := [
  758390808583124345090609352202245,
  758390848583138293160634338604131,
  758390898583125209520914996002610,
  758465688583127260860756467607762,
  758465788583131874131089801902042,
  758465908583129537840906724902622,
  758466788583127748600878536003159,
  758466828583122485590982565302187,
  758467678583125174880763888506065,
  758467768583123210150923808302170,
  758467778583137151510575234502322,
  758467838583123243220727229406853,
  758467898583127690480585507802193,
  758468708583126279531010081402610,
  758468798583136475440571849902374,
  758468878583125178090781735605649,
  758468908583131571050965098802622,
  758469668583130838681059396402009,
  758469768583128023020933020602659,
  758469878583132565780955693602919,
  758469888583127956320720793511078,
  758471678583125925940911498102359,
  758471738583127821001040016702005,
  758472658583125388090937564303082,
  758472778583137573410647108104467,
  758472808583133657060717869306592,
  758472868583129923471031231202480,
  758473708583131965590794225504926,
  758473758583125428990826178903291,
  758473808583130302540918519402737,
  758473878583137274740574231202292,
  758473888583118524620992031002034,
  758475678583134250830843886703340,
  758475738583123187560834098902584,
  758475798583129807780817783403859,
  758475868583135469140901865303486,
  758475888583126217210899594302262,
  758476728583120391310956434602081,
  758476828583126160570606698802271,
  758477658583121433690965052802355,
  758477668583115652640995599202008,
  758477698583119814090841019802168,
  758477758583135424300561810602036,
  758478808583124134350640465603887,
  758478848583115861780990870602013,
  758478858583131680420869718602953,
  758478888583127814030632112107549,
  758479658583123808110616542302103,
  758479668583134023210871675703305,
  758479678583124584890966990302996,
  758479738583121865180939851502398,
  758479768583131581390961693002684,
  758479808583129074790843729602881,
  758479828583132067160758360406205,
  758480658583117963290974576402026,
  758480708583117911270975462502008,
  758480728583128067530629072807426,
  758480768583121159990825878402682,
  758481698583131768460838188003027,
  758481728583125934420849957202873,
  758481758583128481150791149704963,
  758482738583126465340975808903519,
  758482758583129324840598472707900,
  758482768583122715380837328902474,
  758482778583123639140638435901885,
  758482888583130089440864092602757,
  758483798583130559330989155403163,
  758483808583125138140615552406001,
  758484658583125573911008947502247,
  758484688583135549190575882102039,
  758484708583131933570965618102616,
  758484788583130269751051784202213,
  758484838583118632750992939402010,
  758485768583126213940841186902677,
  758485808583124277040912300802346,
  758485838583122123370690520904643,
  758486668583127128970879132403220,
  758486678583134741160944095902624,
  758486708583138070950838066403116,
  758486738583120895210961124502264,
  758486758583130690700870958403028,
  758486768583128905310600080208264,
  758486828583122358480889721902086,
  758486898583130619710676491406321,
  758487708583132481260654967806151,
  758487778583137047300882469003080,
  758487848583127535300920441502372,
  758488758583123446250859986402390,
  758489768583124445400698773307820,
  758489818583130038220937484702922,
  758489828583122345940845893102544,
  758489838583125804330959945302981,
  758490828583129894780968578702905,
  758490848583131883060877133302771,
  758490868583126724510943437603036,
  758565798583135253940572311702200,
  758566698583135506010880110203241,
  758566838583123471510916189702188,
  758566888583128073450885717303023,
  758567808583131022460995818703072,
  758567898583126374970910136402335,
  758568688583123751420637177902073,
  758568718583124442341001071402192,
  758569838583133043940917502802911,
  758571788583132415850921243902727,
  758573768583137933560554300502194,
  758573788583129936220888004902769,
  758573908583132659340970298402610,
  758575708583126215090989016403300,
  758575738583129131890567975702614,
  758575768583128310030842749903173,
  758575848583130435821046123502524,
  758576778583134324600854931603011,
  758576838583127616200786261605067,
  758577808583129939560939511902811,
  758578738583129208130977621302766,
  758578798583126885430880974603228,
  758578858583133424930912834502934,
  758578868583130844361021428703239,
  758579838583125202700940956703953,
  758579888583124384440904539302452,
  758583698583131612690958697702779,
  758584658583124696430896490502194,
  758584838583120753730844136502363,
  758585858583131527581087169402171,
  758585868583128230420888289202933,
  758586658583119217880802529302942,
  758587658583132279351077861702483,
  758587768583129875970946664103088,
  758589708583129932390965308903081,
  758590658583124980410989410402667,
  758665688583120981830968091902233,
  758665898583129941041051477402053,
  758666718583124752290593985302369,
  758666848583126351330857807203296,
  758666878583128369721010367803165,
  758667668583128372410580338802117,
  758667848583118850460830749202115,
  758667868583124621650626132204885,
  758668708583118012120976523002022,
  758668738583122187620976207402275,
  758669768583130446860704893207278,
  758669828583128952200873179002715,
  758669838583130204260954600203007,
  758671848583126213300647966304205,
  758672788583121054190752087505957,
  758673728583128124810882233403148,
  758673818583134558580894812603237,
  758673838583126325000605992202295,
  758674738583126683670979603504087,
  758675838583122232340890707402106,
  758675888583128745221030392702115,
  758676658583128997590908327102537,
  758676688583120790460967247802203,
  758676768583132542920968155102729,
  758677828583132768600830595603147,
  758678678583117067120975553602018,
  758678878583130864670953833202785,
  758678898583124218910615087602802,
  758679758583133939030897297602912,
  758680678583124115250951507102759,
  758680838583120488790934477902087,
  758680908583131452410929837602771,
  758681818583120235020981258902081,
  758682668583117660380995831102024,
  758683708583133338921074787402577,
  758684658583130024320975299002884,
  758684738583132219520879646102845,
  758684788583132861900794479804591,
  758685748583125409570998431302609,
  758685798583135621100573371702082,
  758686838583129957551003385403267,
  758686868583135310260835742603100,
  758689838583131360090908468202654,
  758765768583127927071045290602040,
  758765898583129899720998608303065,
  758766878583131294421041438502545,
  758768718583126387210822089203167,
  758768828583123988660963264302943,
  758769658583122750260823175802990,
  758772808583124263580615819703003,
  758774708583124738000617699604351,
  758776688583127177270829638903160,
  758776878583129522670577800202139,
  758777678583130906000621860606308,
  758782668583122653530963966302294,
  758782738583130004521054027402130,
  758782768583133971540720462806227,
  758783688583122343060735875005934,
  758783848583131345601081894102081,
  758786738583126929040582042102163,
  758786768583134526521103193702333,
  758787688583129002961050943702023,
  758787828583126444260804790804188,
  758789838583134678070688752208644,
  758866808583123180840821717402852,
  758870768583119460740987877902033,
  758876768583130566581045057302398,
  758877828583118476010994210902010,
  758878658583126293200856880203287]

/-- Rows 4601 to 4800. -/
def rows23 : List ℕ := [
  758878798583123600860989028602321,
  758884658583127248220641997406596,
  758886718583136993470857901703334,
  758973808583132230630964601502716,
  758975778583136572560594404703095,
  758975788583132924300826056503306,
  758978718583131272880993076503196,
  759069708583126277800992076903068,
  759069828583130706411036163303734,
  759080728583118234170978467102090,
  759085788583125081220712005708454,
  759090868583129939050981041502900,
  766571746576131906531995912202023,
  766575796576130635592007389202665,
  766575866576130781391998906302135,
  766584736576131426981997189402126,
  766666716671132559832075016002135,
  766671796671133153002056979502285,
  766680686671132074672048387802597,
  766683706671132698262033947703741,
  766683906671132387752056525602558,
  766687786671133233442078098302230,
  766776756789124865682136132602008,
  766780726789124722262124718902041,
  766782656789124594172129735002076,
  766868807282133033331974288902007,
  766868857282132569861982468102527,
  766876797282134579501943891102154,
  766879677282135543911986247102299,
  766879837282135466301987963802290,
  766880767282134893131939035902274,
  766882717282135376601944965302951,
  766882737282135225661945614302278,
  766883667282133280861966750503776,
  766883807282133532051962855802079,
  766886657282136301941963775002548,
  766890657282135731881960519702353,
  766890687282134116391953356902289,
  766890856665134564981957604704462,
  766965666983128947971781209404301,
  766965766983128284521794250002141,
  766965776983126839721776127402070,
  766965806983132265751831037902030,
  766965836983133566571739523602416,
  766965846983131550241806527302700,
  766965886983126803691758601302097,
  766966656983127834471751459202296,
  766966666983133306351770750602137,
  766966696983128275281770419903788,
  766966716983132350491763776104961,
  766966766983131287761820848402014,
  766966906983128898751731653802609,
  766967686983132384711818567305585,
  766967706983131746441815535504356,
  766967736983132569001792668809362,
  766967786983130002321800264902013,
  766967796983133294781716167502323,
  766967816983128081751792833402128,
  766967836983130207481800601802000,
  766967886983128734051798566003950,
  766968656983131735661805244803151,
  766970776983130892341757583605284,
  766971656983127139061763645804297,
  766971696983131894801827582602403,
  766971826983127188611762062803859,
  766971846983130286201762659304029,
  766971896983131815381775281605339,
  766972676983132082431796734203768,
  766972796983128833111798790302336,
  766973666983128866951813588402020,
  766973716983131588411816507903162,
  766973906983128513741766269504902,
  766974826983126734971739351902093,
  766976656983128746041764773004644,
  766976676983127786751791861102011,
  766976766983131523441821006202465,
  766976776983128898131788839609598,
  766976786983132581951743347205006,
  766977666983132129591762650704968,
  766977686983130487151764371903998,
  766977716983126691001754922202052,
  766977726983129851261842163202298,
  766977796983127159651743771102285,
  766977806983127792561789002102129,
  766977826983133429161741633302541,
  766977856983128443521795233002365,
  766978656983132023051804769604566,
  766979676983129937981764920904405,
  766980656983129547101827108202024,
  766980806983132779541783467503503,
  766980906983128915581758048803850,
  766982696983129476001789603902011,
  766982736983127949311787648102250,
  766982746983132463571776680703156,
  766982776983130861061767519205097,
  766982796983133112591725254303444,
  766982836983131139641811668402000,
  766982846983126647211736300402086,
  766983656983130942031744909604595,
  766983666983129596401826991502135,
  766983766983129853581842479402196,
  766983796983133350361782026002014,
  766983846983132911771715795703169,
  766983856983132335971814065204625,
  766984676983131529441750716002000,
  766984736983130242781752070603401,
  766984766983130423811787803802000,
  766984796983130484771765393004025,
  766984906983131788201751396904756,
  766986666983129576231831239902236,
  766986676983129496441794997402225,
  766986686983131697001751352504775,
  766986836983130371121762060704267,
  766986846983132870091772629703682,
  766986886983132221281713703402855,
  766987766983129999311838197302042,
  766988746983133430781761660802016,
  766990716983131680211789176302862,
  766990766983127417881740879202111,
  767065667082139883641810859202344,
  767065677082140958751819451402010,
  767065687082139435281828069102315,
  767065697082140065651814197802311,
  767065707082139600441836307202256,
  767065717082139868671830199002295,
  767065737082138593871830019202428,
  767065747082138713901800084502581,
  767065757082141040461825528502000,
  767065767082137694491800018502121,
  767065777082140421951815886002031,
  767065787082138891391794932802833,
  767065797082138548241796063402718,
  767065807082139483901843690302410,
  767065817082139971521826895102364,
  767065827082139672821825639702358,
  767065837082138929631798614402512,
  767065847082140523991816124702035,
  767065857082139621951781722102456,
  767065867082140327851834553502177,
  767065877082139412571858948203299,
  767065887082138539071805293502886,
  767065897082139875511823792302208,
  767066657082134177701805804302204,
  767066677082134528071788620602084,
  767066687082134819221792710402166,
  767066697082134825271805049502171,
  767066707082133549131813572902535,
  767066717082135648401796756102102,
  767066727082136179681787889902074,
  767066737082136579621803001202423,
  767066747082135902261809165502902,
  767066757082136230981823612503497,
  767066767082135852491811725403300,
  767066777082133910721794682202203,
  767066787082136308341795879002203,
  767066797082133644111813459302499,
  767066807082133387661795667402616,
  767066827082133451431812577102622,
  767066837082134367961788750302098,
  767066847082133165991799872503260,
  767066857082135730501802071302436,
  767066887082135200411808057702328,
  767066897082133690921789374902108,
  767066907082133468271784627302245,
  767067657082136784701805509402207,
  767067667082132803571806006004028,
  767067677082134355561814675002912,
  767067687082134757981789300202064,
  767067697082136176721819686903207,
  767067707082134673931817826003084,
  767067717082133012211811001503368,
  767067727082134594481788794002052,
  767067737082133913081821010302563,
  767067747082135482871804225702128,
  767067757082133562661822821002788,
  767067767082133590071814969702459,
  767067777082133995391831765304606,
  767067787082133765061799685402302,
  767067797082133162171794320302984,
  767067807082135563251794929102115,
  767067817082133770271820058002581,
  767067827082134413681824726603910,
  767067837082134702721794076102190,
  767067847082136964021798413802341,
  767067857082135536901824163004410,
  767067867082134372901820230403096,
  767067877082134399031807538902190,
  767067887082134085841811345702243,
  767067897082135631811790199002072,
  767067907082134145481788191202164,
  767068657082133711941797477802259,
  767068667082134028811813737002351,
  767068677082135278031795453602148,
  767068697082135419441820627603859,
  767068707082134854181801690902282,
  767068717082133885451818822002446,
  767068727082133676971805992002411,
  767068737082134978581798612202157,
  767068747082133090861816900203114,
  767068757082135491201789199002007]

/-- Rows 4801 to 5000. -/
def rows24 : List ℕ := [
  767068767082137036671800962402315,
  767068777082134500551801933302105,
  767068787082135896171790027402056,
  767068807082135957191786952402020,
  767068817082133281681805240602984,
  767068827082134567081799379802043,
  767068837082134790601812430402978,
  767068847082133216411800838203076,
  767068857082135195221791119002105,
  767068867082136275181801930802499,
  767068877082136581161806387202440,
  767068887082134477191810065502692,
  767068897082134878361795156702240,
  767068907082135109171812131702499,
  767069657082137323781767950002170,
  767069667082138441951778910902393,
  767069677082138460541749314402137,
  767069687082138057121770711902406,
  767069707082137340551809407802177,
  767069717082136599571816055402663,
  767069727082137478491823889002630,
  767069737082137619801827764902558,
  767069747082136839151816178002541,
  767069757082136885391820406102531,
  767069767082136617101810833902377,
  767069777082137963691826816302308,
  767069787082137265591806984002299,
  767069807082137224401845633703411,
  767069817082137481871768962202037,
  767069827082137696011779581202222,
  767069837082138046271763313302575,
  767069847082137552061852137602938,
  767069857082138868651850556802909,
  767069867082137432381856116102679,
  767069877082137241511842701803722,
  767069887082138590611862411102961,
  767069897082136722141776036602079,
  767069907082138727281862058903253,
  767070667082138351771824182702420,
  767070677082139085291816965802512,
  767070687082138893701812394202498,
  767070697082139048321823599702335,
  767070717082138760731832840902538,
  767070727082139073241833645202728,
  767070737082137406631788148302111,
  767070747082138386421851405603024,
  767070757082136441871792138802085,
  767070767082138522031816403502509,
  767070777082137654201819912602413,
  767070787082138431521844648802381,
  767070807082138155701821867702384,
  767070817082138494921823538602453,
  767070827082138065421844184902938,
  767070847082138362671857215403224,
  767070857082136870801823717002551,
  767070867082137196991820693802430,
  767070877082136931601786677402184,
  767070887082136565651849774802682,
  767070897082139307391816343902308,
  767070907082138712421837702302354,
  767071657082138102571873568902627,
  767071667082137737171874296902787,
  767071687082136923171857591402876,
  767071697082137498981838984102823,
  767071707082137001731848903102656,
  767071717082137698051868326203368,
  767071727082137362371829110702580,
  767071737082137388151849482703585,
  767071747082137033091854153402645,
  767071757082137991471833852202732,
  767071767082136676891854782302761,
  767071777082136604371843336903030,
  767071787082136466491841388302997,
  767071797082138296691832493102236,
  767071807082137982081837828302351,
  767071817082137484591843475703053,
  767071827082139153711859404202804,
  767071837082139484161855790003148,
  767071847082138715871870709502873,
  767071857082139128321871009702853,
  767071867082139355031862108802518,
  767071877082139123221854614803230,
  767071887082136760901858199203745,
  767071897082138268621870141003184,
  767071907082137143891849626202768,
  767072657082135514511832687203240,
  767072677082135878021851838702702,
  767072687082134395541847157002197,
  767072697082135064651851039502594,
  767072707082134450251843341602361,
  767072717082135493491845311103296,
  767072727082135461251848276202719,
  767072737082135689191854485702804,
  767072747082135658141849144102650,
  767072767082134707601838895505330,
  767072777082135820411866512206839,
  767072787082136126241858054203624,
  767072797082134537841843715802923,
  767072807082135086291837582604731,
  767072817082135069851829914905218,
  767072827082135324351833592103483,
  767072837082136206021852920102857,
  767072847082135522551837490903847,
  767072857082135088771860864108091,
  767072867082135923511846360403076,
  767072877082136144201847138802705,
  767072887082136251531835842503040,
  767072897082136533791834153302915,
  767072907082135946691866400103737,
  767073667082134782171809586702791,
  767073687082133915901803864602453,
  767073707082133827871827390603686,
  767073717082134179771825120604024,
  767073727082135269951800226202285,
  767073757082135237641802629202351,
  767073767082133911581790449402255,
  767073777082133110101806251803325,
  767073827082133483371819762402643,
  767073837082140880241817338302442,
  767073847082133613671817218702525,
  767073867082135379961788776502016,
  767073887082133336091785729502607,
  767073897082135966641794713402246,
  767074657082138078711850482303001,
  767074667082136898231792976102576,
  767074677082137434781835084302713,
  767074697082134492881854021404883,
  767074727082133200001810560502810,
  767074737082135821341789194602017,
  767074767082138970001862362702870,
  767074827082137559061796766602194,
  767074837082139344321832784102509,
  767074857082136709821829376502746,
  767074897082139018281858637602866,
  767075657082135628481863327203035,
  767075667082132563341894791702025,
  767075677082132541171887928302208,
  767075687082135257181868023506277,
  767075697082135028881853066502872,
  767075707082131494531890860002087,
  767075717082132048841893998302177,
  767075727082135515481856788202960,
  767075747082131911871887949702018,
  767075767082135709731846974403040,
  767075777082135609871843040703266,
  767075797082131661231888813902012,
  767075807082135558861853879303050,
  767075837082131936371894052602027,
  767075847082132294271891849903131,
  767075887082135409051865762607650,
  767075897082135691441856912602751,
  767075907082136383391857682904057,
  767076657082137842981834961002523,
  767076667082135645051858797102779,
  767076677082135784821831507503089,
  767076687082137056571823598802529,
  767076697082135564231859719402983,
  767076717082135215701858432302722,
  767076727082136832491848161302623,
  767076737082136194461862610003616,
  767076747082135399081866370008593,
  767076757082136275331856630703754,
  767076767082135746591850859602820,
  767076777082136300611847949502728,
  767076787082136422031840071202796,
  767076797082136049411839982303106,
  767076807082135923461860923103520,
  767076817082134586651847429302240,
  767076827082135247781848264702508,
  767076837082135362781853098303302,
  767076847082136354061825643802771,
  767076857082134912231849681002525,
  767076867082136159881834017202817,
  767076877082134897861824169504096,
  767076887082136850561817191702529,
  767076897082135735011849409302659,
  767076907082135711051841991203096,
  767077657082133511381853617402366,
  767077677082133388671863802002264,
  767077687082133554431869495302012,
  767077697082133858431844164102197,
  767077707082133610851866924702741,
  767077717082133407161819876003470,
  767077727082135551201842951403325,
  767077737082133537771849133002081,
  767077757082133217141822926602433,
  767077767082133449131851973002074,
  767077787082133646591872025802012,
  767077797082134148901848597402197,
  767077807082132754171828617302143,
  767077817082133257111857766103391,
  767077827082134387341866041005714,
  767077837082134063501841400302668,
  767077847082133586151839557502016,
  767077857082133324021833423902054,
  767077867082133910811849032202124,
  767077877082133313841819147102551,
  767077887082134055231859878603508,
  767077897082133615701851044702197,
  767077907082133175891827387702206]

/-- Rows 5001 to 5200. -/
def rows25 : List ℕ := [
  767078657082134450021860341003985,
  767078667082134504671835264805361,
  767078677082134697051866008804962,
  767078687082134272671846522402143,
  767078697082133657601850021402245,
  767078707082133733901857892602902,
  767078717082133613441840669302004,
  767078727082134031721850782802393,
  767078747082134517981857432704696,
  767078767082133799411837857502597,
  767078797082134283091834529605054,
  767078807082133503731834167302321,
  767078816983132547141821160907528,
  767078827082133531581851801302103,
  767078837082134288521859290303771,
  767078847082133992891847599702148,
  767078857082134077501843944702885,
  767078867082134341301849102702472,
  767078877082132908801820590703608,
  767078887082133628991831507403237,
  767078907082133775721848941402459,
  767079657082137047951826117702580,
  767079667082139458311821038502358,
  767079677082138059591813613402433,
  767079687082137257391798754102269,
  767079697082139018311812067102464,
  767079707082138446271801042502479,
  767079717082138748991794033502656,
  767079727082139526521800775702311,
  767079737082140138271818286502220,
  767079747082137983911817455602412,
  767079757082138779591841584102587,
  767079767082138761121806639402787,
  767079777082139201251784876502091,
  767079787082138708371813642802443,
  767079797082136474791782715902105,
  767079807082139379471811684502512,
  767079817082137681611812023102398,
  767079827082138457091815141502509,
  767079837082139833551806499902250,
  767079847082137421791807234102356,
  767079857082137076511791190902443,
  767079867082138036791792507602330,
  767079877082139819821832107802325,
  767079887082138378851820683702489,
  767079897082139546991803657602423,
  767079907082137894151821573402396,
  767080657082139170021823076502148,
  767080667082138963611824203502218,
  767080677082139249021825041702291,
  767080687082139103531805585002554,
  767080697082138927051828293102217,
  767080707082138841061819134102360,
  767080717082138995661825521602392,
  767080727082138897301826026802207,
  767080737082138833941822749502105,
  767080757082138837621830062702470,
  767080767082138820341826328302354,
  767080777082138606481826632902302,
  767080787082138751151820984602537,
  767080797082138719971823169302291,
  767080807082139110441827426902387,
  767080817082138705701829086202371,
  767080847082139087771820274002325,
  767080857082138343911828041802253,
  767080867082138774121821892802584,
  767080887082138840141819761202427,
  767080897082138589191823209202270,
  767080907082138816001820606902371,
  767081657082139206741841498102313,
  767081667082138329491840153302388,
  767081677082138593441865364102790,
  767081687082140320441827977902337,
  767081697082139216421856683402770,
  767081707082136971871842605702997,
  767081717082137006501831042502602,
  767081727082137848081845828102905,
  767081737082140222671831365602256,
  767081747082140306471840265402448,
  767081757082138907391843601602390,
  767081767082140462071828154102166,
  767081777082137203081860762503271,
  767081787082140728541822276202248,
  767081797082140693561830737902068,
  767081807082138760871871879903016,
  767081817082140562901830830102156,
  767081827082138494351837572102266,
  767081837082140335191829894602173,
  767081847082140611831826343502060,
  767081857082138950461870733102841,
  767081867082139786471846374302492,
  767081877082137637731861947503249,
  767081887082138113871848157003145,
  767081907082138777811867194002722,
  767082667082138443391755616302325,
  767082677082139652201785131402459,
  767082687082138598061779173202216,
  767082697082137290141776481602105,
  767082707082138880271784285402045,
  767082717082139370531801387102479,
  767082727082137756251765408102122,
  767082737082136703321786114402299,
  767082747082138526731758306402347,
  767082757082139180951795335802256,
  767082767082138278601755490902259,
  767082777082137941851801979902194,
  767082787082138069911782595002124,
  767082797082138756611765172702291,
  767082807082138002181776155902235,
  767082817082137966291758238702297,
  767082837082137141601783804602089,
  767082847082138533141771326202452,
  767082857082138597681761770902277,
  767082867082137717941772750502439,
  767082877082138662461785919302022,
  767082907082137309111778355702013,
  767083657082137271691860772502807,
  767083667082137617701875098602885,
  767083677082137911351873956602693,
  767083687082137276571850935902726,
  767083697082138211761864473903040,
  767083707082139061661861299702629,
  767083717082138324151860518203084,
  767083727082138790561878138202491,
  767083737082138640271848843102458,
  767083747082139662131850463802512,
  767083757082138702311846829002410,
  767083777082137485271867802603041,
  767083787082138686571862258702751,
  767083797082138572711859489203105,
  767083807082136900071863246204683,
  767083817082137640211870044703207,
  767083847082138531181876160002504,
  767083857082137969691852954303378,
  767083877082139004111840930402289,
  767083887082137791591863345402912,
  767083907082138212901859510103076,
  767084707082133250731861151602269,
  767084727082133094461861412302006,
  767084777082134454011857283104318,
  767084787082134240281840120103624,
  767084807082133870201861688704522,
  767084817082137739161788146502322,
  767084877082133769291844155602308,
  767084907082133203021864761102058,
  767086778077137096111236132002010,
  767086808077136758441238144102027,
  767088657082135978421853267802823,
  767088667082135700551793626102118,
  767088677082138231161858461203237,
  767088737082134057141854795204736,
  767088777082139113031843603702387,
  767088817082137943471778108902499,
  767088857082138999711819317902089,
  767089687082138082221856490603280,
  767089717082140140461832575502312,
  767089757082139459571854167202909,
  767089767082137691731865396903040,
  767089777082138662511838506202328,
  767089827082137317861816843502289,
  767089836983132444851820014806330,
  767089847082139743061832038602295,
  767165687182127934332012878302055,
  767165717182128602732013339502154,
  767165767182130852492059417102024,
  767165867182127923512039432602308,
  767165887182130656072024803202027,
  767166767182129217642027786702083,
  767169767182128076172035560002143,
  767172737182128336462061391402018,
  767173757182127688192063433502079,
  767173797182129705002008138903558,
  767173827182125341042051611802115,
  767175657182130452822012676204167,
  767175677182126268112030132003045,
  767175707182128129172004927902059,
  767175767182127080812020226302026,
  767175777182130977992043351502203,
  767175797182126803642070836402412,
  767175807182125427512071351102066,
  767175827182129612281999092102006,
  767175837182125421542069046502035,
  767175867182130906302046049802018,
  767175907182130291722018337204059,
  767176697182127188612067969802039,
  767176777182129907172052243502014,
  767176827182129647662024485902241,
  767177717182127980372033586302012,
  767177757182127443692053444602405,
  767177767182126695462044705802012,
  767177847182129074992065845102060,
  767178887182127077552053683002010,
  767180657182127019792051333002121,
  767180767182126583742063730302165,
  767180907182128920602007499702011,
  767182687182126381112080955602204,
  767182807182126400342080688702017,
  767182887182128166152014283102046,
  767183657182125537082041339902490,
  767183757182129169932035005002054]

/-- Rows 5201 to 5400. -/
def rows26 : List ℕ := [
  767183777182127689662068995702019,
  767183797182127427912049500902236,
  767183807182126971902025217802500,
  767183827182126407672054736402127,
  767183847182125210192060924502376,
  767183867182129476572027619002146,
  767183897182128981032044859602044,
  767184717182128343292035484302485,
  767184767182125179332053214603180,
  767184807182127522502023993704113,
  767184837182130530282029676102022,
  767184847182128102132037786202785,
  767190657182127760842008805002014,
  767266807285137449451992198102495,
  767268677285137481392016030202359,
  767270777285137586951968430202440,
  767275697285136923611997354702376,
  767278897285137985792016970102338,
  767279897285136311061987682602295,
  767280807285135995561982383303000,
  767280827285137630311977999502424,
  767283657285137086191979637802919,
  767283777285136697281971549202408,
  767283787285137114462002307802322,
  767284767285137354471989707102341,
  767290657285136890721967874602633,
  767365707384132939301927085002728,
  767365807384132386221933089304210,
  767365817384131489221937159502361,
  767365857384131115881941845702064,
  767366657384131544381956992802183,
  767366677384129006061970779402521,
  767366687384131133401967425402177,
  767366707384131439331955313302265,
  767366717384130531631973995002215,
  767366747384128644091960450003706,
  767366787384130246681981262602156,
  767366807384132422591941741202048,
  767366827384130673551979280802047,
  767366867384130775001969221703187,
  767367657384128906991962285902039,
  767367667384126986691945953202757,
  767367677384127465631950526902039,
  767367687384125496641926082902070,
  767367717384126814131919569002635,
  767367747384128174311930865302065,
  767367807384128116021933127202345,
  767367827384128080801956451702096,
  767367847384127918821924758202024,
  767367907384127403221949085502079,
  767368657384135885831915100005409,
  767368667384136167701922439103240,
  767368677384135080701921526302000,
  767368697384134699881906575102152,
  767368707384133821521930215702052,
  767368717384134394321918526302062,
  767368727384135670951914966002336,
  767368747384135828941930169202030,
  767368757384135951341928152602125,
  767368767384135129921912938302030,
  767368777384135132101907915702082,
  767368807384134318231908296004214,
  767368827384134363401922174302000,
  767368847384136025911911247702609,
  767368857384134831411908698202069,
  767368867384134790271916650702020,
  767368877384135706061925341302017,
  767369657384130619851882833902087,
  767369687384129367001889699402100,
  767369697384129260811890434702013,
  767369797384130892411895056902037,
  767369827384129895801886386702036,
  767369847384129921451896772302023,
  767376657384134927751886282602299,
  767376667384135771681891632703260,
  767376677384135808651887721302797,
  767376697384135501391880989202925,
  767376727384134956211890143102423,
  767376737384135310421884142002417,
  767376777384135105611884562702378,
  767376787384135748561888875403050,
  767376797384136150001897114702901,
  767376817384133983201901396102013,
  767376827384135167721899983502161,
  767376867384135717041895923502755,
  767377657384135087311875966902943,
  767377667384135545161892022702484,
  767377677384135645461887187202767,
  767377697384135678231897015302779,
  767377707384135215591876505702989,
  767377717384134050911881184802148,
  767377747384134415441888241602013,
  767377767384135456221892758702353,
  767377787384135544201886649302586,
  767377807384134817661902931302161,
  767377827384134774731887869002607,
  767377837384134920831897054502456,
  767377877384135737911873576203791,
  767377907384134539631876161903267,
  767378767384130359811982931902059,
  767380657384136023331925838902410,
  767380667384136454351913248502789,
  767380677384134230361922901202018,
  767380687384136028881931838602305,
  767380697384134541121912729002123,
  767380707384134815281916079002021,
  767380717384135906001935922902207,
  767380727384135644641921796302059,
  767380737384135973541930351002179,
  767380757384134199771920567302097,
  767380767384135441651902542102333,
  767380777384134634561908119102184,
  767380787384135470821909216602286,
  767380797384135438061903177302344,
  767380817384135827961934473602037,
  767380827384134028531925969602041,
  767380837384135682571920682102137,
  767380857384135392471918436602044,
  767380867384135425321923827902013,
  767380887384135387321908763302239,
  767380897384133606911933493502049,
  767380907384135494121923377302007,
  767381667384133456961918432002814,
  767381767384133828881905727702039,
  767381787384132422601928520103276,
  767381837384133261221912548302634,
  767381877384134083171899883302047,
  767382657384131808061925888302427,
  767382697384131661151924327602039,
  767382707384131815521922263602015,
  767382717384131996891927410002289,
  767382727384131639711933026602645,
  767382737384130614261949030502131,
  767382747384132766041902374302031,
  767382767384131546761929006502093,
  767382777384131054191940665102029,
  767382787384130879791942775402294,
  767382807384133673081903832302006,
  767382817384133805071911974102142,
  767382837384132749361910612002015,
  767382857384131956961925000102055,
  767382867384132431441920572602990,
  767382907384133088511925106502693,
  767386687384136726111922179305982,
  767467698373135899811955146102510,
  767468738373135684761939994903420,
  767476748373136232491944403903273,
  767477668373136489151956770902876,
  767480908373135477181936119802007,
  767483718373136476271951121103645,
  767566656790138790141968875202524,
  767566676790139279331944877703414,
  767566696790139739591946393903322,
  767566796790139669801972893102774,
  767566826790140564961963384703341,
  767566856790139975071941728903397,
  767567696790140711481945628602928,
  767567726790140472531934634003131,
  767567776790139240521965522902925,
  767567826790139933541957739402977,
  767567836790138946341944104103417,
  767567846790139689571956746503945,
  767567866790139944301953736002793,
  767568756790140414701958311602925,
  767569826790139803621930321603568,
  767570826790139588901983741103440,
  767572666790139599101955428003519,
  767572676790140359661955728102918,
  767572686790140652961950767603479,
  767572756790140262991958380802791,
  767572786790139544171977002302797,
  767572826790140619331947262102912,
  767572836790139036201944884403620,
  767572866790139847101938904103213,
  767574656790140334781959498902889,
  767574676790140432661953271502862,
  767574726790139149301949672703683,
  767574736790139420281956291203820,
  767575656790139370651961126203833,
  767575666790140117021945325002939,
  767575676790139870051927683304076,
  767575766790140115261940844703420,
  767575776790139282541974133002616,
  767575796790139998061951711702925,
  767575826790140075501976903203227,
  767575846790139418221933162603299,
  767575856790139021631974329302580,
  767575866790140205741929072103988,
  767575896790138983921971210302685,
  767576666790140772071950202003328,
  767576786790139671801932659303187,
  767576846790140129291945202702912,
  767577666790140400731948939902778,
  767577726790140538341949977602800,
  767577736790140299021972920903374,
  767577756790139797691966829603322,
  767577766790140237291949048102652,
  767577796790140520001936812103085,
  767577826790139926351927208403768,
  767577846790139685301980931902843]

/-- Rows 5401 to 5600. -/
def rows27 : List ℕ := [
  767578656790139173051961116303548,
  767578776790140368081961136703000,
  767578896790140169451950502302610,
  767579766790139588331972053602869,
  767579846790139201331975170402603,
  767580656790139733011962620503978,
  767580676790140305391939173303207,
  767580686790140014011957211602741,
  767580736790139579991957575903742,
  767580746790139450651971277402702,
  767580766790139722731934481703374,
  767580776790139715321940895003528,
  767580786790139940241955485903250,
  767580796790139421371973890802676,
  767580826790140101821942263203246,
  767580836790139917081933735603433,
  767580866790139417871949841503902,
  767582656790140403471937511702882,
  767582756790140094661936869403272,
  767582796790140415031942192802728,
  767582896790139751851935840203328,
  767583656790139565591930441603404,
  767583666790139489951970478802836,
  767583756790139831271959997703601,
  767583786790140215461940836103079,
  767583796790139243461947129103335,
  767583826790139086051940725103564,
  767583846790139244621938893503377,
  767583856790139957911970129903099,
  767583906790140329631942538302764,
  767584656790139396591947052503440,
  767584666790139152871966758702777,
  767584676790139985721944214903026,
  767584686790139797411926993303640,
  767584796790140085021929439804135,
  767584866790139444281946113203614,
  767585766790140697611939643502787,
  767585796790139981831964227903341,
  767586766790139729691948771403420,
  767586776790139931001961795202987,
  767586796790140219561943786702919,
  767586806790140467391962002503325,
  767586826790140625561956407403610,
  767586896790139294941970223302915,
  767590656790139928411980689302793,
  767590666790139817361951993203617,
  767590686790140319111935053102882,
  767590776790140085761964395903407,
  767590786790138817181960600602826,
  767666717376122013032148603802135,
  767666837376121290382147192302656,
  767669757376121846892148184602193,
  767669838083122441562150012602095,
  767669847376119553702149555002042,
  767669897376120616332152021401836,
  767672657376122816442150416902028,
  767672837376121763992147207202148,
  767672907376122179162148392302121,
  767673667376122987162155681202922,
  767677718083122597382152161102200,
  767677907376121322872153875600734,
  767678867376121204422149950603330,
  767679867376119927162149317303492,
  767682687376122665932151636602185,
  767682777376120769322146531004126,
  767683687376122107742147779602043,
  767777767784125856451944788602300,
  767965656584138420091952185204867,
  767965666584138924261952933703720,
  767965686584138161611955846703061,
  767965716584138448131956302703022,
  767965766584138234381966645102495,
  767965786584137843891962530602896,
  767965826584138664451968231202603,
  767965836584138104711969326002623,
  767965856584138408771961869102685,
  767965866584137960761962508302765,
  767971706584137065021960814602830,
  767971716584137151191963152702950,
  767971736584137496141944930604283,
  767971756584137457071953262503690,
  767971766584137556041953211204575,
  767971776584137786891953046904820,
  767971796584137477341940051404142,
  767971806584137390451961099003340,
  767971846584137381401949643604060,
  767971876584137173981956649803297,
  767973726584137383171896968103352,
  767973746584137522411924457804198,
  767973756584137567061921323703589,
  767973826584137468731906877304811,
  767975706584136705521940756903706,
  767975716584136530861943304103498,
  767975726584136931131944321704019,
  767975766584136799381928834604088,
  767975776584136976101943697204120,
  767975786584136582001936253503800,
  767975876584136814961948262603460,
  767976676584137900591939425603742,
  767976696584138337261939876202887,
  767976706584138502041944040104236,
  767976716584138104671949540502828,
  767976726584138140001943404903168,
  767976756584138203481933319803378,
  767976776584137869491941273903510,
  767976796584138303651943268002827,
  767976836584138406361934453903070,
  767976846584138051421946685203050,
  767976856584137950971938702103670,
  767976876584138182961940314803043,
  767983776584137131731936919105642,
  767987716584137004331954359803115,
  767987736584137258831913309103906,
  767987756584136645941943206903470,
  767987766584138232401941673902978,
  767987836869137804721929971703411,
  767987876584138122821965333702600,
  767987906584137294891927902804470,
  767988656584137529571941242104000,
  767988786584137839951962290802830,
  767988846584138315191961101902575,
  767988906584137200751947264704220,
  768065828084128871851709607702011,
  768065868084130660261712543602026,
  768065908084126985001548266702308,
  768066698084128070791721152202617,
  768066718084131850291732904304241,
  768066748084128063451720655702636,
  768066828084131585051715498302247,
  768067728084131720151725477803181,
  768067798084130161041715278902587,
  768067838084128732641706420302326,
  768067868084130261871725158603572,
  768069868084128527771721098002807,
  768070678084128077881717640402262,
  768070768084129461521488668802112,
  768070828084127017291720139102024,
  768071828084129090821519623202086,
  768072828084128519861512754702118,
  768073788084130973301713483702010,
  768074708084129764051711825102164,
  768074798084131317871725463204559,
  768076658084128775951528944502180,
  768076718084127122951713179802017,
  768077658084122689001632159102192,
  768077706983129970301730983303056,
  768077738084131469411727823203329,
  768077828084129817771711122102187,
  768077848084128705001709628302046,
  768079868084130926831713531002056,
  768080688084127746241542891002259,
  768080738084128551831515472802109,
  768080778084127150561714113702004,
  768080828084131263331713147602228,
  768080838084123086961636495202340,
  768080848084128765691708556202374,
  768080868084127184851725296802010,
  768083678084129113531706337202157,
  768083738084127937021711954002098,
  768083748084128668261518171202311,
  768083848084128836791706531202440,
  768084788084129472071716142902266,
  768086768084131263361715011802787,
  768086828084131270311722778303805,
  768086908084130720041721115004060,
  768166756665134952591972942102400,
  768177796665133292871978402902156,
  768183656665133829971983171403708,
  768184906665134459831987093302784,
  768265828279136177372012492102352,
  768266678279136532712069059302607,
  768266778279137659662034582702605,
  768266838279134499222060827602297,
  768267758279134377742084905902353,
  768267768279136783522036742903036,
  768267838279135423612022419402866,
  768267848279136512572038792703083,
  768267868279134317942038729402626,
  768273658279137185712076155602397,
  768279688279137017442019001402465,
  768279808279134564522060766102314,
  768283668279135785762040785703496,
  768283778279137692442028819402405,
  768283868279137695222063505603375,
  768284678279135071212087115402200,
  768284778279136465282044000002963,
  768284828279135815142013167602348,
  768371666772136261021869837403312,
  768371676772137081151867874405368,
  768371696772136755581870703904293,
  768371716772136225791860909403410,
  768371756772136485471872393705307,
  768371766772136549021866170704041,
  768371786772136955411868610203427,
  768371806772136404531862557703350,
  768371826772136610561876742104600,
  768371836772136216671873144903585,
  768371846772136597491870940304257,
  768371896772136759671866105203421,
  768377656772136936671882833303460]

/-- Rows 5601 to 5800. -/
def rows28 : List ℕ := [
  768377676772136494521882851106412,
  768377686772137401981886320903470,
  768377696772137083451882950703400,
  768377706772137070891890621703485,
  768377736772136670301878696903893,
  768377766772136291271889935602850,
  768377776772136743411880950703879,
  768377806772136834671869010503465,
  768380656772137574301890423403364,
  768380686772137440401874854703771,
  768380706772137689451885232803522,
  768380716772136904401882582103826,
  768380726772137511631887706303496,
  768380756772137280551888797604480,
  768380766772137180301877361303545,
  768380776772136515561886775805241,
  768380786772137228101880766303591,
  768380796772137338811878798403368,
  768380856772136476891882588006356,
  768380866772137204391888641403337,
  768384656772136304681878084904487,
  768384666772136978701871288403414,
  768384796772136915031866130604402,
  768384826772136592971864027204178,
  768384836772136503481874037205304,
  768384906772136556031873802605060,
  768390656772135998531889077602915,
  768390666772136919411874906803672,
  768390676772136970491883850403475,
  768390686772136160501887813902656,
  768390696772137015981894791303617,
  768390706772137442961882290803300,
  768390716772137179771874111803411,
  768390726772137475581885359503416,
  768390736772137508301879462103774,
  768390746772137182651870840204247,
  768390756772137378051887538503751,
  768390766772136165561888739902650,
  768390786772137238291885113603928,
  768390796772137186611882040904245,
  768390806772137086081872864203437,
  768390826772137486131895502803306,
  768390836772136526951898780707600,
  768390846772137522051889970803539,
  768390856772137267981883009604372,
  768390866772137508381892591503656,
  768390876772136758871875965904211,
  768390886772137173871890384103358,
  768390896772137408931870490003427,
  768465668482129931032127301004694,
  768465678482130115172129812305125,
  768465688482129956852126712004653,
  768465698482130066232125549904767,
  768465708482126974822152680202065,
  768465718482126993722154121602238,
  768465728482128737252105878305310,
  768465738482126915482107947502177,
  768465748482126950082174615504315,
  768465758482126571502161479902025,
  768465788482127964562125563305381,
  768465798482128346752182443105016,
  768465808482130821742155078603758,
  768465828482129797502168966707236,
  768465848482128422482180809804828,
  768465858482128767202154786605463,
  768465868482129457462113469105185,
  768465878482130301532163639003831,
  768465898482127778592096867104795,
  768465908482128778022145192605100,
  768466658482130996362088060302163,
  768466708482129632712079266202340,
  768466718482130331732079780802170,
  768466728482130131612064198102023,
  768466738482129784112105641304581,
  768466748482128306582071527202412,
  768466758482128325092071577402433,
  768466768482128526472070087202016,
  768466778482127789192105788005250,
  768466788482129432982100136905026,
  768466798482128681672094569904897,
  768466808482130684142093719702006,
  768466818482130736512100656902182,
  768466828482130252212095454002764,
  768466838482126700172087880902020,
  768466848482128819552078231202263,
  768466858482131129422079052802574,
  768466868482127137202076615802202,
  768466888482130999312092165302400,
  768466898482129810452105046904588,
  768467658482128612292192843604927,
  768467678482127909152201949804251,
  768467688482129715832195106505783,
  768467698482129955112211480007763,
  768467708482130555282230963907889,
  768467718482130999542197752402104,
  768467728482127102782188411203483,
  768467738482128458432233226707480,
  768467748482127916592211090703822,
  768467758482128754852216429206157,
  768467768482127975882218308904001,
  768467788482127536382169408103723,
  768467798482129663242230240807462,
  768467808482127724032184581604216,
  768467828482127214382206231203729,
  768470658482128530172069738402013,
  768470668482127950572073190902010,
  768470678482127846652103553904835,
  768470688482129548942070041502050,
  768470698482127254972076492102021,
  768470728482131263742165541802018,
  768470748482130892742092934302312,
  768470778482130982562088208302325,
  768566767768137846992077748702758,
  768575757768136927322089073602399,
  768671908083121234562142696902300,
  768779727775131169052007377304313,
  768783757775131972282016176602781,
  768871667173126150861746401802015,
  768966698283134826522002909702335,
  768966848283134947502002377502265,
  768978738283133341242018412902648,
  768980717769132370621992530202141,
  768984867769132413151987133102020,
  768986828283135142472013085602276,
  769073668375138175731972039502436,
  769075908375138649452012364102755,
  769077678375138391331971133302679,
  769080808375138616511978252202545,
  769082898375139082992010968103049,
  769083768375138648321991346403043,
  769084788375138858421979829502676,
  769084848375139074402002237604355,
  769090738375139231231986064603020,
  776671848467111446711088486102013,
  776677678467111835471081778902009,
  776678678467111915461080546202010,
  776680736683111901171078945302003,
  776680866683111774151077229302015,
  776683678467111516871084627502006,
  776683898467111332921087945502005,
  776687676683111646891075364602005,
  776865666879109199461105647602057,
  776866726879108257731088670202010,
  776867826879107931241083485202262,
  776867896879109257831102570002012,
  776867906879108897241092744005527,
  776868746879109563061083094702203,
  776874666879108565091100135102098,
  776876826879108452341110743102238,
  776877676879109879981083634702068,
  776880676879108570011116171102046,
  776880796879109319541105040102057,
  776880806879109753841094159102015,
  776883686879108443961103258202059,
  776883736879108495101102338502111,
  776883846879109408761093831102563,
  777166787184105474440911583302130,
  777167667184105465050895908006339,
  777171847184104570400894683906952,
  777176767788116897480680420602061,
  777180667184105738330914062802033,
  777182667788105991780895479802426,
  777182847184104516510882972702656,
  777183747184103944560891604902029,
  777184757184106918650901204602427,
  777276677278105737190931340402049,
  777276777278105442280920674002091,
  777278747278106447720940882202049,
  777282797278106312570934675202018,
  777283677278104393220923768104061,
  777284697278105772600925188502007,
  777284717278104052920927800005294,
  777284747278105924510940573702003,
  777566837477108403951030266702090,
  777574807477107940261032005502010,
  777574837477108498701020751402006,
  777575747477108198561034604402020,
  777584807477107992441031715902016,
  777765657788106759960802367702016,
  777765767788116322810804504402676,
  777765787788115856030797560903476,
  777765837788111714620776825808112,
  777766847788105772990837250102464,
  777767667788108823650807316206277,
  777767677788119339480788923503410,
  777767697788108659480881937602010,
  777767717788120404660721202006850,
  777767727788107579600804830406199,
  777767767788114756950725177002108,
  777767777788108507750916632502039,
  777767787788117400250701589402205,
  777767807788109827790894968202034,
  777767837788121628320735641205904,
  777767847788110643550915405702102,
  777767857788118714620740390606462,
  777767867788113712450810392102761,
  777767897788110546750791043007709,
  777767907788110522880930598002015,
  777768797788114113890754631408104,
  777769807788111410190751525205020]

/-- Rows 5801 to 6000. -/
def rows29 : List ℕ := [
  777769837788121798970633906602066,
  777771767788110528750766722507016,
  777771777788117959780690689802059,
  777772677788108504350825743607509,
  777772797788119088020689373402627,
  777773657788109274090764119604467,
  777773777788111249270932577702007,
  777773797788115551460790715406778,
  777773847788106459850849062902164,
  777774657788109474600831944205127,
  777774677788109570770807065410120,
  777776677788107995530777767902039,
  777776777788115686720709095102016,
  777776797788111004380785070807956,
  777776807788114083890696391202069,
  777776847788115999110686503102034,
  777777657788115779410824700502025,
  777777687788110937630903397402038,
  777777767788122636220647453402074,
  777777777788109841620789614908033,
  777777847788108094370854162802036,
  777777867788116951160785190403864,
  777777887788109427570809094809316,
  777777897788115784130798828003278,
  777777907788113162020737221702038,
  777778717788121234060690220105990,
  777778767788117451700804245702484,
  777779887788106988050832709406989,
  777780657788110602540825305302497,
  777780667788109174490816279709361,
  777780677788110070180812122509600,
  777780697788121359630664676202030,
  777780717788118632870794564802901,
  777780787788109387410779549907258,
  777780807788113805890702885602033,
  777780817788107534710880085802200,
  777780827788110670530747348902023,
  777780837788105877360829000702294,
  777780897788110623870929144402036,
  777781847788110620240797978908296,
  777782887788116015560817655002139,
  777783677788106694700874584409707,
  777783687788113165280702773602374,
  777783707788120935440651862802148,
  777783807788112273590790568508035,
  777784657788109527240818229310229,
  777784667788106749650868265503909,
  777784677788115571960765854905688,
  777784717788106571430869677603491,
  777784747788122543100630143302489,
  777784777788112301980821258902080,
  777784787788112044780811929402164,
  777784797788109354500804261210466,
  777784807788104789220876223102097,
  777785787788111045300931090102024,
  777786657788107996390871722202046,
  777786827788109149460838137202090,
  777790677788112885140773062509141,
  777790727788107601880785276702026,
  777790777788110052290777253507141,
  777790797788109147540754313202030,
  777790807788110751300765236907333,
  777866767873101985980962181402041,
  777866827873102190700936418902262,
  777870677873102357110938038102217,
  777876787873102427970930933602328,
  777877717873102142740938206702194,
  777877827873101799380934814102094,
  777880677873104046250966018602069,
  778066798065099340470977423302010,
  778067698065097981290995889302033,
  778067728065099454390974805702019,
  778068658065098383500975591602089,
  778069748065099364901001328402025,
  778072798065098926511004003702052,
  778076808065098399411018578902000,
  778077718065098981431004451402031,
  778083658065098091030990542602272,
  778084798065099047591006073602135,
  778090908065099426540974326002023,
  778265796782100415740963889602082,
  778266656782099159150966693603214,
  778266676782100773080964131602003,
  778267676782098606120970314202026,
  778267726782099982170952204702007,
  778267866782100352230941441302033,
  778267887788116849140668593102016,
  778268676782100351620963651002079,
  778269676782100201200965232402056,
  778270736782098910880964891602049,
  778271706782098658270968136202049,
  778271806782100213130961999902883,
  778276666782100589050944437102270,
  778276676782101032360952887802131,
  778276776782099964700969734702007,
  778278836782099972830943443702033,
  778279676782099989000957781405021,
  778280686782099731620970122702098,
  778280776782098945710965279602049,
  778280866782099957700958528505287,
  778281806782099439390958669802085,
  778283716782100283790962860102262,
  778283766782098835320967463302032,
  778283866782098825450970366905228,
  778284826782099736470949816002220,
  778285806782100888890949806302184,
  778369848386103168170920927602010,
  778376688386103721720918923602919,
  778376808386103435990909303702101,
  778383838386103707830908755504020,
  778467657284108269951062070602203,
  778467727284109727771078007402010,
  778474657284108236501074810002167,
  778474697284108666011058276802147,
  778480807284108579331076930802122,
  778480887284109931601071475602009,
  778566656785110372681054901502033,
  778566826785112620921008440702013,
  778566896785110393131033698902203,
  778567656785112020061011950002335,
  778567676785112456541016576202013,
  778567706785112139430995824902102,
  778567766785111622410984409502010,
  778567776785111415461021391002413,
  778567856785109969561041453302249,
  778570766785111498721017925802197,
  778571776785109906671047813102056,
  778571846785110095741048388802056,
  778572656785112978630975750602209,
  778572716785110775451036736502361,
  778575876785113120800986926402016,
  778576666785113092670975518802098,
  778576776785112333410963487202131,
  778577796785110650281050699202016,
  778577906785110285221028996502112,
  778578666785112753750980749202049,
  778578716785111827160972071702079,
  778580666785113023020974164702102,
  778580826785112419970963163502131,
  778583656785112851390974609202164,
  778583676785112488931000421602338,
  778583766785111506881029713802013,
  778583786785111636970970377602039,
  778583836785111962681005534502295,
  778584686785111783610999958102125,
  778586826785113025510985506302209,
  778586846785110981791030580402328,
  778767667589109686231001085702007,
  778767767589109667370998952602003,
  778767827589109290420986323602007,
  778965666683114286791023079302019,
  778965706683114698281021982702005,
  778965756683114160361024024102015,
  778965776683116511211029088702006,
  778965786683115056371019439602005,
  778965806683112445931060231902011,
  778965836683116005581025977002008,
  778965846683116751921026009102008,
  778965876683117266391015956902009,
  778965886683116953961024508302010,
  778966676683115418881021118402005,
  778966716683115741721021540802018,
  778966836683115699891007271302010,
  778967656683114632891043164402018,
  778967666683114314761045400102005,
  778967676683115601051007317302003,
  778967736683112745241058116702005,
  778967886683114151461045966902003,
  778969706683113566941041130602009,
  778969716683113468811042112502005,
  778969726683115472551033101602013,
  778969776683115293721036619902026,
  778969786683114590501031778702008,
  778969826683114891331038113902010,
  778969836683114173081035596902005,
  778971706683116551341012897002007,
  778971776683116626471016253802006,
  778971876683116683021010148602003,
  778973716683110975831063228902008,
  778976686683113179171049004102009,
  778976836683113584501047245602010,
  778977776683112373911069775502011,
  778978786683115052151025240002016,
  778982686683112185151042662202006,
  778982806683113684371051570802015,
  778983776683114064261054640702024,
  779066906690107536900916818802015,
  786765736775071170330202351902020,
  786765846775070033290218742502015,
  786777716775068108020220905202040,
  786777726583079625920189966502010,
  786777756775069866290226480002015,
  786777786775070736710210407602015,
  786777826775070159470222895802025,
  786780756583079084700141536902010,
  786780898070080993710219633702008,
  786782716775068797260201832302019,
  787067738770072252450006577602013,
  787070787074072227243574291802059,
  787070797074072224113571945202010]

/-- Rows 6001 to 6200. -/
def rows30 : List ℕ := [
  787070827074073468093599737402018,
  787075668770072748400005095802070,
  787075687074070946163581565002006,
  787077657074072329333570965602010,
  787077797074071436223599497702013,
  787078657074071959453585509102017,
  787078667074072288803587556402011,
  787078717074071886173593368302050,
  787078728770073257810003326602010,
  787078758770071805490011790902240,
  787078767074073536213593367702044,
  787078778770073311630001186102050,
  787078797074072655553594185502205,
  787078827074077516383570645202025,
  787078837074073200633593389102011,
  787079768479069344950012578802110,
  787083877074073242513575439902085,
  787084698479068625140050418702325,
  787084708479068765850048386302126,
  787084768479070225870056537802025,
  787084798479074429280043627402050,
  787084808479074026550062035902016,
  787084868479071415340060291402236,
  787086767074071490203576354902016,
  787165667573091800973530363202032,
  787166827573088647103560029202020,
  787170858486081470913591920302006,
  787175847573090220093534389002005,
  787177657573091006303530271302020,
  787177757573092059443532673802007,
  787177787573093372923529884502003,
  787178857573088683793564051502015,
  787179787573088206693555231202010,
  787184657573091382763531379002009,
  787184667573090491583538246102008,
  787184697573088780293547739402010,
  787184778486087513933559660202015,
  787184797573089360403544241102010,
  787184828486087384373567987402015,
  787184837573088524713550607702015,
  787184857573093084203528055202015,
  787185757573090185953536332902020,
  787385697885070924560100638102209,
  787687708770075687930019282602020,
  787687878770076761660037910302079,
  788365836583075816010103271802009,
  788365858783076494650073691202040,
  788370658783076169800079762802058,
  788370738783076151840082573402131,
  788370816583075785790105713602110,
  788377658783076257680077388502020,
  788384856583075659470092747302000,
  788465658070072437120303795702005,
  788465828070067568220286324502018,
  788465848070066630150304704402007,
  788465868070066112870323315102007,
  788471658070072653260344864802010,
  788471668070074179620391072302009,
  788471678070074879020317638902006,
  788471698070071536560435567702012,
  788471708070073943570343380302013,
  788471738070075560890339263602014,
  788471748070066926690451029402007,
  788471758070074332370331128202011,
  788471778070073419810363357702003,
  788471808070075192160411831802005,
  788471848070075289740347499702012,
  788471858070074754320333778902009,
  788471868070075137130312844102011,
  788472698070075570100337376302011,
  788475708070073313130346652502007,
  788475828070075543900349705802013,
  788477688070081201580397640502220,
  788477788070080226560409859003481,
  788484668070073559470282428902010,
  788484698070072983170304076202009,
  788484718070075048380323298102010,
  788484728070073311510289713602007,
  788484778070072513780302342302009,
  788484798070071935940390427902010,
  788484808070073573440277518602015,
  788484828070073276460285276102003,
  788683658685076337723477087702063,
  788683678685076150713475364002040,
  788683698685072914193483404102035,
  788683708685073738223479204002069,
  788683718685074691223479647402167,
  788683728685074530933481511002472,
  788683778685073418883481576302007,
  788683788685075008553480771302488,
  788683798685074139563481698902043,
  788683808685073925483473966002023,
  788683818685075783573475858302060,
  788683838685074501143472124602184,
  788683868685073208033481752902036,
  788683888685073517133474449602059,
  788683908685075122503465565802045,
  788686658685069749483497682702007,
  788686668685070770183496006302069,
  788686688685071232073489974202538,
  788686708685070486823502307702098,
  788686738685071145833492802602023,
  788686818685072463493484342702003,
  788686868685072307313483067102070,
  788686878685070550103492215402019,
  788787657867068909923478031702013,
  788787667867068391653453929702007,
  788787677867070280253436583402306,
  788787687867068947343448330402022,
  788787697867067413163474510902314,
  788787727867068747133456146602017,
  788787757867069451723442507602041,
  788787767867069228603472359102092,
  788787777867067747413464726502010,
  788787797867067541803467810502006,
  788787807867069714483440945702006,
  788787827867068521883480345302138,
  788787847867068182853458583902098,
  788787857867069214193452563202010,
  788787867867069363353465695802024,
  788787877867067993043461995402051,
  788787887867068482123459677902006,
  789065657890052982523547665802023,
  789065717890053258873556410402000,
  789065787890049298423558559802500,
  789065807890051265313560869603335,
  789065827890052964503549688802111,
  789065837890046095543517906802298,
  789066657890043753083497533602022,
  789067667890043659183482947602253,
  789067727890046502393525221202123,
  789067737890046186240035266902043,
  789067837890044948343491701802745,
  789067887890053206693555088902013,
  789068657890054061183538838402006,
  789068787890044066073501874702004,
  789068867890049762193560750902635,
  789070707890046618743523606002402,
  789070807890049541623552758802036,
  789071657890051590493567417002550,
  789071667890053756613554658302041,
  789071677890043837043488913102198,
  789071777890047531423511871702014,
  789071837890051342243579755502014,
  789071847890046093913501272503824,
  789071897890045125423483987703255,
  789072657890050440003542698702374,
  789072667890053205773546547802062,
  789072757890047286393509790002146,
  789072787890052141833553351302172,
  789072837890050351643567636102072,
  789073826581012111853470319202049,
  789075707890053593553545825002110,
  789075737890047575593536020002019,
  789075757890054749323539085302491,
  789075777890048757543521028202028,
  789075797890054551403538199302545,
  789075847890054935753532812202270,
  789076697890048233933527550503709,
  789076887890044794173493697202752,
  789077657890052263473557362702182,
  789077677890046239653501310704152,
  789077697890052742193551138402066,
  789077707890045326433479198002010,
  789077757890048874913529885902038,
  789077797890044468613476431402687,
  789077827890048201043523166402532,
  789077837890049023963556278402350,
  789077847890048783573554894502100,
  789078697890053341253546522302212,
  789078807890050989563541698602097,
  789078827890050537063568676902006,
  789078837890048704073532173902016,
  789078867890043581183483014402015,
  789079657890045510693499940703380,
  789079727890049797753553726102164,
  789079777890048460793539196702100,
  789079807890051973423573106702025,
  789079857890045040163510852202099,
  789079887890053848023554159402010,
  789080716581012030833465843702049,
  789080727890046400633515373303506,
  789080737890053348093544326002006,
  789080757890053069923548110302010,
  789080777890049678613556033302151,
  789080787890048659343539547102140,
  789080807890049102623549883902022,
  789081787890044978193487353003171,
  789082657890052192163548550302014,
  789082677890043101583481049702262,
  789082757890051105363563643504337,
  789082797890051899883563206202935,
  789082847890046708873525402102179,
  789082857890050563563556520204686,
  789082867890053186213550850102445,
  789082877890053900793539739802006,
  789082887890044482593493160902506,
  789083687890050682483543030702946,
  789083767890053671243545560902099,
  789083806582000020361077176811301]

/-- Rows 6201 to 6400. -/
def rows31 : List ℕ := [
  789084657890052531603556197002025,
  789084697890052252413551568702110,
  789084717890052326253561880602013,
  789084727890052836893555461402005,
  789084737890044136503503579902085,
  789084757890049180433527738602097,
  789084767890045996783504472104496,
  789084777890051154703552585102650,
  789084787890051027643558106403220,
  789084797890051756173558972803221,
  789084847890051690753551480002160,
  789084857890045696903512209502089,
  789084907890044533063477015802786,
  789085757890045766363501184203575,
  789085787890052975853558588202019,
  789086767890044004093488219802335,
  789087667890048483663538609902109,
  789087686581012144083470925902068,
  789087707890045281893492420303142,
  789087717890046445403525495602074,
  789087757890052083393569089502020,
  789087767890046526243524014802304,
  789087777890045207623510887102080,
  789087787890048682133548074302042,
  789087797890050992613574041102042,
  789087807890053203813546209102100,
  789087827890054231783543580602129,
  789087837890048258333515733302013,
  789087847890053165533556739502012,
  789087857890050040363550179402027,
  789087867890052565333559546602004,
  789089807890049998453565329802430,
  796572826570124221222422300205206,
  796573886570124934312492570006895,
  796574766570124406442504896003814,
  796575666570124570582491940607877,
  796575786570121497512458339305337,
  796577786570125936392447557604743,
  796577836570126701042471934603287,
  796583686570123403862422617005773,
  796583716570126749602459088703053,
  796585906570126668682489002603426,
  796666736672116280392306170302006,
  796666836672115933732305821302136,
  796965658365117324912295831702069,
  796965668365108249912226442708858,
  796965728365115298642294812402588,
  796966658365110291172216191207486,
  796966728365109997862226243305887,
  796966818365115918542295866402229,
  796968708365116488582298037002072,
  796968778365114462222241145405026,
  796968828365116268602301326102084,
  796971788365106913022225786202020,
  796971838365116314832237670104126,
  796971848365121415782172640703672,
  796972768365117454672216875005331,
  796972878365112977952268931404091,
  796974668365117056622294006002026,
  796974708365111359302191676102007,
  796974788365111702742191268702048,
  796975758365117911502255139203352,
  796975778365108287692227733608778,
  796975828365115077672281921403300,
  796977658365114573132197039404151,
  796978718365107604532244067105982,
  796980658365118347792261192603174,
  796980678365115183212274810103740,
  796980708365114721062249620604530,
  796980738365114286862221411605000,
  796980748365114116002210357504840,
  796980758365117962142267400003000,
  796980838365114080742275789503651,
  796982668365112712102190646302022,
  796982707381119631722234765303474,
  796982758365114970942266748804049,
  796982778365118094172286061102013,
  796982828365120910152211228103813,
  796982848365116731682300257902006,
  796982898365114705082267245004082,
  796983666569112513872339493402300,
  796983728969107465322271042404363,
  796983758365119787932200813404261,
  796983768365110467362256055304021,
  796984668365118369232166198904551,
  796984708365111477332205206406848,
  796984728365115230882266378203870,
  796984788365117877782287637402030,
  796984828365121696272187160104803,
  796985688365115160922293286102759,
  796987688365110507132251852704062,
  796987748365116210552164686002066,
  796989788365114147552180479702026,
  797365657382120378752282212002019,
  797365687382122446512283843802474,
  797365717382120752362296684902088,
  797365727382120342302308200504414,
  797365737382122008132292619503206,
  797365747382120845502295150002085,
  797365777382120565122291423502008,
  797365877382121346032287471702066,
  797366657382115874192350182002023,
  797366667382118957532308167602068,
  797366727382117210992343119503350,
  797366737382117489182325994602015,
  797366747382117824992323413404173,
  797366757382116530112339620102101,
  797366767382116530432348124202067,
  797366807382117390892327219202027,
  797366817382119265962303172002017,
  797366837382115916162345293802043,
  797366867382116813722333465602076,
  797367677382124352612271414306301,
  797367737382123596552263954906404,
  797367757382123441012282670405782,
  797367837382125234552270047206522,
  797370697382122926542315454107256,
  797370727382122562322316839707310,
  797370757382123899622315634105465,
  797370777382122748742318378307059,
  797370807382122619862316793507242,
  797370837382122309232308321408723,
  797371717382127326432295891501960,
  797372727382124871072285392707755,
  797372827382124135632298313707440,
  797372837382125214862286563107609,
  797373657382125953382304432105769,
  797373677382124989462307898305008,
  797373687382125695842314656706046,
  797373697382125423682311215105305,
  797373717382125645312313722005627,
  797373737382125698682313240505962,
  797373757382126240932300410206184,
  797373777382125780022308769606040,
  797373807382125786122308109206170,
  797375667382117203172363703602022,
  797375747382118733242376614904663,
  797375757382120289422369441107741,
  797375777382119092402384353905231,
  797375807382117156012361592502019,
  797375817382116742262358862002045,
  797375827382120302762360367207298,
  797375897382119562202356582207846,
  797377667382122896512392696606952,
  797377677382126515932410522102945,
  797377747382126420872350901106197,
  797377777382126246772396243705263,
  797377787382127488052372910505499,
  797377837382126169272375775805010,
  797377847382123679882368846804312,
  797378697382127385842354399102425,
  797378717382126916562343920501976,
  797378747382126654262323441901921,
  797378787382126666552314544301939,
  797378827382126914282306731801930,
  797378907382126655862331838202035,
  797383707382118898892337163906261,
  797383747382118585162335669605358,
  797383767382117674512343673204641,
  797383827382117378682331744003337,
  797383837382119549262325700906920,
  797383897382120708392315350907939,
  797384757382128439062249673005981,
  797384767382128338542284149006315,
  797384777382127346872261114306396,
  797384807382129607792278674002253,
  797384827382127655852250586806343,
  797384847382128143862262195706459,
  797384907382126781692283459207382,
  797389897382121917522342606606054,
  797390667382121110332415405103628,
  797390677382115445662403652102043,
  797390727382119494622409022306564,
  797390737382117246592407181704040,
  797390837382117425882423077405930,
  797465737479121726742159695604395,
  797465777479121966262159759804555,
  797465817479119598052150133202175,
  797472707479122169562171374104220,
  797472828365122541662181819904250,
  797474828083121870372152082804485,
  797477707479122365212162471804240,
  797565837587119354492275081002472,
  797566757587119241182279834102206,
  797568737587119704792274361702430,
  797666657666123798192154808602087,
  797675657666124582972159968902075,
  797682657666123841522159761505018,
  797765656569114444392346352102088,
  797765686569114437432344456902016,
  797765726569114085092324614402050,
  797765746569114194262326061802043,
  797765766569114243792356065802869,
  797765776569114258172345333302077,
  797765826569114783612325560302015,
  797765836569115150302328708502012,
  797765906569114865192330734702014,
  797768666569115266492353470202062,
  797768776569115026552353466102165,
  797770746569115118572363070302152]

/-- Rows 6401 to 6600. -/
def rows32 : List ℕ := [
  797782756569115629742359339102102,
  797783746569115338342355002502111,
  797975667977116160002362375602100,
  797977657977110684502388882002064,
  797977837977113591662382668902048,
  797983657977107033752340764602073,
  797984727977107683862340221903570,
  798066718075122051862529348102600,
  798066878075119345622517035902392,
  798067728075125879642517960106920,
  798068718075119969952504860702492,
  798068738075121912712508896402594,
  798070658075121355042529868002591,
  798071688075115230172423228302036,
  798071848075125916442543249906796,
  798074658075118296032484427802185,
  798075678075114900392471426302100,
  798076658075121536652544048402712,
  798076728075121499212543414202679,
  798077658075123055022536327002902,
  798077708075124341712535049604691,
  798077738075122556942515556802690,
  798077748075117333072481333602154,
  798077828075114898482469263402035,
  798077848075120215692514199402403,
  798078728075116207842483852402095,
  798079758075120756172533577702568,
  798079828075115271652445796202032,
  798080678075123908002500693707799,
  798080718075116959102441268405289,
  798080738075115283702433328602033,
  798080838075124006222515135403158,
  798081838075123567452530265703581,
  798081848075120264102469255907267,
  798082758075118370792502757102271,
  798082788075123623782530831703668,
  798082838075124080332519563903050,
  798082848075123845702537970407479,
  798083688075125353262555304709600,
  798083708075114872082471065802029,
  798083758075117731542487828202196,
  798083838075124808682523452905183,
  798083848075122523652543500802837,
  798083858075118637312491754702763,
  798084728075114835462488265802028,
  798084858075115985392430211602498,
  798087788075122304782495655906550,
  798090668075121359802494544606728,
  798265657381123789492224329702618,
  798265847381123345912235765502275,
  798266687381123945622243415402161,
  798266777381126316802231417802709,
  798266827381126541282243316804079,
  798266837381123283822242311802114,
  798269827381126257872239470203341,
  798275757381125478922243344603061,
  798277777381120562172276485002011,
  798281877381125784042231222402749,
  798283727381124679282235258602451,
  798283857381125571592253005304494,
  798284707381126293242223919902996,
  798284737381123531322242536002121,
  798284767381120944692260758902020,
  798285667381122485602257400402068,
  798365808389126182332172083703276,
  798368738389123385002164960604020,
  798368908389125286602201528802700,
  798375768389127007952211786403480,
  798376758389125413882159475302157,
  798380828389124555992183012503322,
  798466688165115280222315565302035,
  798466728165115133012313080402130,
  798466758165115635142315016202010,
  798472728165115259802316143002013,
  798965658969102826422250147502007,
  798965848969104560442268168305735,
  798966658969108712252308245702908,
  798966788969104789472257191405800,
  798971688969106191552321607402134,
  798972688969104740832229701402041,
  798982788969104656272293627302054,
  798983788969105490982242196409216,
  798983818969102645452339130602114,
  798983898969105961092287753104097,
  798984908969103672252241371806838,
  806565758583142224760057921702056,
  806565818583151603990309125002242,
  806566658583160134330363988102002,
  806566698583150787830181707502125,
  806566718583151178480289618902130,
  806566738583154008000342930003291,
  806566768583155983870188417502029,
  806566778583149361720247315202663,
  806566788583152404530370033004880,
  806566828583161284850232009102044,
  806566848583156907940284613102644,
  806566858583153093790325266504675,
  806566868583151411760304838202096,
  806567688583145222390172620802098,
  806567728583151585200207625702244,
  806567738583156641770362490002544,
  806567758583150157090157154902039,
  806567768583154296650308728802552,
  806567778583151846170144182802014,
  806567828583155834610359241902610,
  806567838583144586940150826902291,
  806567868583150496750345031702041,
  806567898583150082660374960102012,
  806567908583151775830139544402457,
  806568698583156065180172259002021,
  806568718583158026170170870202974,
  806568758583141878360033427302018,
  806568768583149036840214869102074,
  806568778583151863790179646602103,
  806568818583147752190274810102078,
  806568848583152724360360768504420,
  806568858583143902890134486002022,
  806568898583149961960171198702025,
  806569688583151248640301557602212,
  806569698583150218090179575102000,
  806569716765154776480388375002880,
  806569728583148651570179340202541,
  806569738583154684020328809802548,
  806569778583152792430155084602008,
  806569788583150563110287416102099,
  806569878583150941600153573902025,
  806570658583154802630321141102434,
  806570668583154837420323580002454,
  806570698583146964870460820502172,
  806570768583152533100263873203151,
  806570778583157108690221487502334,
  806570828583151272050303483302378,
  806570838583153016100256308002441,
  806570868583155929750301537302510,
  806570878583152508150260919903535,
  806571658583154735940230399102152,
  806571668583158485110304996804670,
  806571718583149879780168296602018,
  806571728583156890520228251602197,
  806571758583152161710345433903580,
  806571768583154546010169853402059,
  806571778285153772710082652902027,
  806571818583151536280301791302158,
  806571838583148432710442827202034,
  806571848583150468570153116802014,
  806571898583149456570446777102044,
  806572678583152183610202190102070,
  806572768583155694420236382302213,
  806572778583153881940276889202678,
  806572788583149245710444664302015,
  806572798583149640270285085202084,
  806572808583151527720138484602007,
  806572858583156045650257395902289,
  806572868583153870210310305403294,
  806572888583152698270204309402070,
  806573718583149322770240905902090,
  806573738583148191300226143102092,
  806573758583156975300195517102166,
  806573768583149751890250759302186,
  806573778583155991940262825003220,
  806573788583153736680310904903720,
  806573878583155627990119070202022,
  806574678583146308670216219702050,
  806574788583148357930454024402021,
  806574798583150481510334110302015,
  806574868583151730300310687602870,
  806574908583149727760227327102269,
  806575658583150873110333077102025,
  806575688583147803400276219002139,
  806575708583144849830165868802020,
  806575728583146937170258101402050,
  806575738583149935770159680702011,
  806575758583154935310188413202154,
  806575768583148981250248672602717,
  806575788583148683940233352702068,
  806575798583142941590111430002077,
  806575808583158128460282457404103,
  806575848583145362880482736602088,
  806575858583160329250303784502067,
  806575868583154313360212449402187,
  806575878583145573920469163802080,
  806575898583147568480255452402137,
  806576718583151535590196496202055,
  806576748583150203060256732502280,
  806576788583160911700267370202017,
  806576828583157502400315075603920,
  806576858583158876390138713302012,
  806577668583148986820209470402051,
  806577678583152959200243947202338,
  806577688583149444210336871502100,
  806577758583153485460178829702093,
  806577768583154994830293491602270,
  806577798583152090760163116602337,
  806577828583151215900301466902137,
  806577888583151433280370900803531,
  806577898583150369750137216102048,
  806578658583150694140180302702020,
  806578678583151167820299656302152,
  806578738583151585850204422302088,
  806578788583154545610309129402362]

/-- Rows 6601 to 6800. -/
def rows33 : List ℕ := [
  806578798583149977200251561602314,
  806578848583145045310484181402119,
  806578858583154725250219172202399,
  806578868583152650750198104902309,
  806578878583149452320226710702302,
  806579668583156910440231313502145,
  806579678583148907390222811002137,
  806579728583148096860445872502030,
  806579778583154514300145319802037,
  806579798583150545730149123302059,
  806579828583152960090380613303716,
  806579848583156889440173906302014,
  806579858583146008110188299102014,
  806580668583146580590103253402125,
  806580678583155259830131415902010,
  806580698583145905590208373102024,
  806580718583146798940470405802105,
  806580728583146956880213657602095,
  806580778583149015610181768602015,
  806580788583147580380224196902057,
  806580798583158343780131950402012,
  806580828583156818990293641103099,
  806581728583149755120181145202010,
  806581848583160207880289779502038,
  806582678583158111470344137004084,
  806582768583155574450352078902932,
  806582838583151779770186819502051,
  806582898583154723760245202102653,
  806583658285153682800094916202053,
  806583678583160192450315094202064,
  806583688583145319720194723602021,
  806583728583156246520138954902012,
  806583738583147053470446269702021,
  806583758583156597300200077902013,
  806583768583151713330228413802178,
  806583778583152070890167001202311,
  806583788583147176080097823102063,
  806583798583149444960282962102029,
  806583808583151810720324870604750,
  806583848583153328530308629904409,
  806583868583151102970244261803583,
  806583878583151967270287996402148,
  806583888583150474960289479102113,
  806583898285142716233540920402098,
  806584658583155174330278763502227,
  806584678583155570440120760802271,
  806584698583155240310136508402294,
  806584718583149048890195950002021,
  806584758583152324790299110102358,
  806584768583152899720240230602964,
  806584818583160466180225466302096,
  806584858285142823223531732602039,
  806584878583153390090310385204190,
  806585758583152682930153420002010,
  806585778583159370090278419502266,
  806585788583153898020191939402068,
  806585798583151759800299427102221,
  806586658583151537240144132102075,
  806586678583145115950177257802155,
  806586688583151132600337334602118,
  806586698583157019800335738802550,
  806586768583157739170154291102013,
  806587668583156359610325861702365,
  806587688583150137420305728902022,
  806587718583146488600476175002044,
  806587738583160635650199881502041,
  806587778583154693150165847902261,
  806587788583157567120170306002088,
  806587828583150776050312750202030,
  806587838583151568850304508802354,
  806587848583160611910201281302035,
  806588758583153028140344962804653,
  806589656765149511450403353102033,
  806788708583157247550297886003042,
  807065758583150899910187628402030,
  807065768583156550290273646702436,
  807067668583150081400320073902072,
  807067768583148842920214479802010,
  807069768583154610410177252802200,
  807075658583150874670174759602040,
  807075758583149434750251906602150,
  807075798583153025450164602102015,
  807075848583155333190135182702003,
  807075858583154876570222745702115,
  807075878583150803790185498202028,
  807078798583156816110189643602055,
  807083728583154376180187711602024,
  807084798583153330060370387803640,
  807087838583148705780229880902130,
  807089858583156567560347322502433,
  807182797185104174573252340702607,
  807183787780105114483257179402215,
  807183908583155407430187186703313,
  807185657185103575323249164902627,
  807185777185103478913247839802298,
  807187847780104996953256073902271,
  807266758583112030880202134102023,
  807268728583111579590217894402014,
  807270838583113862770137111002006,
  807272738583111478670219546002835,
  807272788583110795630239802402078,
  807274728583110959260233248702254,
  807274828583111299370219197502020,
  807275798583109754990239556302045,
  807276738583111981680206641202153,
  807276858583111209280230229002023,
  807277758583111149620228988902454,
  807277858583109996950243259204669,
  807278718583111443810222231102022,
  807278768583111325250220567702013,
  807278898583110780690230434403308,
  807279718583110889140235636802054,
  807283708583109761030244409008189,
  807284798583109721380249421402038,
  807285808583110264030241346102096,
  807479788583106738130104780602007,
  807577657772101335823423184402013,
  807577747772097062163512614402006,
  807582797772099392773474662002009,
  807587657772098717403477228402009,
  807667727573091986270226406302005,
  807670657573093900450206090202020,
  807680657573095878390179264802005,
  807768898583118197470026071102013,
  808067848583152992380239266802825,
  808073908583159729840169722802025,
  808075658583150699390182174102024,
  808475757077097456143318370602011,
  808480787077096985273382007902010,
  808482798087097367533145343102176,
  808483657077095352473429518802011,
  808489657077099496313180745902091,
  808765757772109284863466225002014,
  818365768583130772200660914206206,
  826765898487112792773002615802034,
  826766838487114421862983456702093,
  826768678487112671973004501002078,
  826768738487114851433012348202790,
  826770718487116153392999549702232,
  826770788487112746283010942302143,
  826771738487112678363014650902028,
  826775728487112577573003347102031,
  826775858487113477333003903902085,
  826775878487112046823007247702046,
  826776898487112032493015290102044,
  826777818487114281453006197002663,
  826777848487116219503000001102041,
  826778788487112964283002071702063,
  826780798487114806373009266902026,
  826781678487113555852996237402103,
  826781838487112780803011728202128,
  826783818487112697693004706702097,
  826783838487115070053015396202018,
  826784808487115073083012155702106,
  826787658487113365292995019902115,
  826789858487114012613016109702052,
  827465657480125774393203682902141,
  827465707480126175663179209404182,
  827465727480126169613204103102105,
  827465757480126029943201936202085,
  827465777780114285323339742402022,
  827465787480124370413192643102094,
  827465877480114779533213105802384,
  827465907480124186953191324402454,
  827466667480124428593152062102026,
  827466687480123669323153577402298,
  827466697480124631643152103102022,
  827466727480124359643124091902015,
  827466757480124590423139260602003,
  827466847480125507453147866502584,
  827467667480132744133232120302505,
  827467677480132761643216928202082,
  827467727480131774343208048902151,
  827467747480132811013216656102087,
  827467757480133051473241874802327,
  827467777480133891813241626102135,
  827467787480133574503249480802234,
  827467797480133120563213741602025,
  827467827480135455133210391902090,
  827467847480132894253231507802281,
  827467877480135400873217890102030,
  827468657480122485063101544902340,
  827468667480123743193097846502041,
  827468677480123924673112668002023,
  827468757480123013733091935202263,
  827468777480123319473104138502053,
  827468797480123190793090942302025,
  827468847582124291053093233902213,
  827469667480134309923233947002080,
  827469677480133680843224408302721,
  827469797480132074973194252002161,
  827469827480135237603211779902112,
  827470657480123885903106461402098,
  827470677480120390193106539802124,
  827470697480122658153088281802273,
  827470707480123596923104431902032,
  827470717480120610003109828502768,
  827470757480121815113107114802906,
  827470777480121876183114352802020,
  827470787480122086283114377302259]

/-- Rows 6801 to 7000. -/
def rows34 : List ℕ := [
  827470797480123465983117370102019,
  827470827480123857593110323102021,
  827470837480123151173102916402005,
  827470847480122831513108405802642,
  827470857480122927023099027102015,
  827470897480121364893108273002214,
  827470907480123681753110285802055,
  827471717480124873893168016802015,
  827475657480118422533097080802027,
  827475667480117425803087009402101,
  827475737480118318423099211702021,
  827475787480117827413088801902017,
  827478657480125266443169174202052,
  827478707480126148783162234002019,
  827478717480125394553168548702128,
  827478727480124750383176891702150,
  827478757480126387713163941202036,
  827478797480126175013133132402311,
  827478847480126639663171847902095,
  827478877480127289573169515702718,
  827478897480124812323182898702023,
  827479657480124436033129031203088,
  827479667480124750023138413602806,
  827479677480125409123128805002015,
  827479697480124528123166737502020,
  827479707480124038033115371402007,
  827479727480125487503132258202020,
  827479737480124133003122336402007,
  827479757480123553343136591602042,
  827479777480123834583126893702025,
  827479797480124791333154287102050,
  827479827480125530643141540502065,
  827479837480124134743145961302026,
  827479847480124210743140028102607,
  827479877480124678693117797602184,
  827479897480124595613155893702039,
  827479907480124054933110479802013,
  827483657480130724943206746102664,
  827483677480128402953203700202353,
  827483687480128060703184080802088,
  827483707480127216173204274303220,
  827483727480130547553214552902152,
  827483737480129417663211326702297,
  827483757480129616943202042102313,
  827483777480130704443213503802119,
  827483787480127956843190956202029,
  827483797480131227713211339302024,
  827483827480130193443203598602292,
  827483837480128138773208987202015,
  827483847480128395173211981902007,
  827483857480128234643209234102023,
  827483897480128810723197758702086,
  827484657480125443643194503502205,
  827484677480125705333194031202313,
  827484697480124986863198274702010,
  827484707480125668123195292702135,
  827484727480123111953197758502303,
  827484747480125850013194069802295,
  827484757480125390333199072602010,
  827484767480125788813200124202098,
  827484797480124774173193569302125,
  827484817480124066413195577602067,
  827484827480125511223193932002360,
  827484847480125523963198034902020,
  827484857480126506903198702202334,
  827484897480125763393193453602463,
  827574747582125115723068001102039,
  827574757582125915893066130102029,
  827574777582124754323063731902023,
  827574857582125876003071117502096,
  827574897582124851093076125702053,
  827578687582128137133085930802092,
  827578787582127749013089291702035,
  827578877582127427033079535802329,
  827578897582128070063086601902241,
  827580677582123500383064692902118,
  827580687582123382893067117803171,
  827580697582125145793086945202008,
  827580757582125193873089351302006,
  827580837582125082173080572802025,
  827580857582125602473093509902045,
  827582657582127835813069893402287,
  827582667582127476863067464602092,
  827582717582127503333076283302230,
  827582757582127813623073563202400,
  827582787582127197393074659602255,
  827582797582127862473071710602328,
  827582807582127764633067919502065,
  827583717582126969683070205202051,
  827583737582127481793064363402023,
  827583777582127432503071106702092,
  827583797582127089343070142402040,
  827583837582127570303067784202058,
  827583877582127249573069982102088,
  827584697582126573213074973902258,
  827584727582125987743094086702070,
  827584737582127042693078827302281,
  827584787582125900613086458302116,
  827584807582126693973064786102039,
  827584857582126710133074868402191,
  827584897582126631673083395202354,
  827585677582126574463072915302082,
  827585767582126270693071073302104,
  827965727480116209343076452302012,
  827968697480116720923077594202184,
  827968787480116346243077514902143,
  827973717480114339503041820202093,
  827975747480116355093067101902023,
  827975827480116167903072963802156,
  827977687480115840033112614802167,
  827977897480114775743052890002150,
  827982657480116592463072426302038,
  827982697480116716583077725102246,
  827982727480114057613038064002043,
  827982757480115937973113202602080,
  827982837480114840043051413502000,
  827982847480114660563046744402036,
  827982897480117048393083970802052,
  827984777480116266883077447902247,
  827989787480114465223029707202070,
  828076658072102980453014253702092,
  828076668072104789693002595902064,
  828076678072105170593005520902484,
  828076738072108163643005298702025,
  828076768072104497723009999902075,
  828076808072103151523037207302066,
  828076838072104491323008938902008,
  828076858072103853053001001102043,
  828076868072105430063010856002200,
  828077658072096371913047488802659,
  828077668072096098973052333302028,
  828077678072097167263042012002189,
  828077688072097116673056354902096,
  828077698072098955283054700102141,
  828077708072098192623063172902012,
  828077718072098593013033318202012,
  828077728072099251713047019202053,
  828077738072098124583042127203300,
  828077748072096053543010053402118,
  828077768072098404803046087302601,
  828077788072095040362997408402015,
  828077798072098171883038374402075,
  828077808072097819753034561202005,
  828077818072096954893062681002156,
  828077828072096072613050944302505,
  828077838072099765213054782202020,
  828077878072099066223061685202016,
  828077908072096923213020478602033,
  828078838072099853473060130702010,
  828083778072100192183047810102328,
  828085668072106374873006110706251,
  828085688072104126523029756702010,
  828085708072104976273004871702151,
  828085718072106033513002364102007,
  828085728072102363663010384902014,
  828085768072103949173011213003220,
  828085778072103213763006038002013,
  828085788072103580403032657102142,
  828085798072110448283019753302291,
  828085818072107550163003543602016,
  828085828072105726463014960302108,
  828085838072106590183003027102013,
  828085848072107652513017326902070,
  828085868072103572883041994602121,
  828085878072103367223018234602032,
  828085898072106933693017472202200,
  828085908072106619093012467002820,
  828086658072101237273050284002010,
  828086668072100635793029238102025,
  828086678072102079193045434902012,
  828086688072099334153032919702015,
  828086698072101922553019501702007,
  828086708072102498033046314402006,
  828086718072101031693057328402007,
  828086738072100704353025414502027,
  828086748072102365083036258102026,
  828086758072101672913023687602014,
  828086778072100296953039687802031,
  828086798072101066383045659002083,
  828086808072099742632987468902071,
  828086828072101604663027466402010,
  828086838072100771483019334102023,
  828086848072099672023038523402038,
  828086858072102305323020817502010,
  828086868072102121043000954602148,
  828086878072101669273054768202007,
  836565656582055777981205565102098,
  836565678589058696651219994302112,
  836565716582056988251213862502075,
  836565746582055460831190687202262,
  836565786582056077161193476002236,
  836565806582058195861195180302243,
  836565826582057083231192123502085,
  836565856582058164501209027802131,
  836565866582058278691191836402056,
  836566696582055445841215747402017,
  836567656582058565771157381803594,
  836567676582059004651154628105734,
  836567686582058508081158542403414,
  836567696582058546841157143003646]

/-- Rows 7001 to 7200. -/
def rows35 : List ℕ := [
  836567796582058704161157918903604,
  836567846582059645561137050003503,
  836567906582052572741181159202768,
  836568706582055540141214029602010,
  836568746582055452721212049602105,
  836568766582055024461221049902072,
  836568776582055311131213535402095,
  836568796582055473581213275202078,
  836568806582055398811213828502059,
  836568816582055298871217546602007,
  836568826582055332591212458602049,
  836568836582055269341214009302059,
  836568906582055272451214944802010,
  836569776582051782611221288002042,
  836569906582055180821214466002066,
  836572676582052559181097705104788,
  836572696582052143261089853607435,
  836572826582051000061123670902853,
  836572836582052610871110871803969,
  836572906582051025931098738505330,
  836577656582054940071122994303489,
  836577696582057181831112072904310,
  836577736582056932481114896204154,
  836577776582054516141104172506683,
  836577806582059215771203447902197,
  836577816582057142551111290204647,
  836577826582055415461115845404470,
  836578676582061394461142460603522,
  836578696582062224701156841702656,
  836578736582061968161124152105968,
  836578766582060605691131964303433,
  836578796582060785471125599205099,
  836578826582062491941150633702919,
  836578846582063146341148929103494,
  836578856582058439641115817203959,
  836578876582060129111181621802282,
  836579676582056900841157224703381,
  836579686582058061151148532003915,
  836579766582055869881166377702449,
  836579776582057314411178362402361,
  836579826582056270221146115503591,
  836579836582057604561148101704019,
  836579856582056740021136454204329,
  836582676582062545161212366902203,
  836582696582062538331209388702173,
  836582706582063779921217680802194,
  836582736582064268961255116202916,
  836582766582060320651228460702230,
  836582776582059735431223600502174,
  836582806582062603981240294102430,
  836582836582063235931195035802307,
  836583656582065127171145100606088,
  836583746582065618831148949205019,
  836583796582066840691156695303168,
  836583816582067848891144244413414,
  836583846582067374111162058603473,
  836584676582064695501222669402197,
  836584686582063596111254258302685,
  836584716582060885921207742302125,
  836584736582063708721263678204673,
  836584796582062489571248729203125,
  836584826582060789571203057102161,
  836584856582060219841220208002229,
  836586656582049805351099835004128,
  836586666582048063591084691603131,
  836586676582044212221125165602190,
  836586686582047964841088412904359,
  836586696582047090211088519804621,
  836586726582043462101110245403082,
  836586746582048677461104128304927,
  836586776582044422221109231902088,
  836586786582049253461149569502085,
  836586816582048748231112604804910,
  836586826582044984001091913704287,
  836586836582048400781146454702689,
  836586846582046785421147149602141,
  836586866582049133031169888602020,
  836586896582047234881148843202426,
  836587656582039667041077520002732,
  836587667075025758761233554502760,
  836587676582039718551079289602668,
  836587686582042261861140868402266,
  836587696582036221941122354702065,
  836587716582038389901106618402061,
  836587726582035155801116824802091,
  836587746582040691491121838902190,
  836587776582044296241097314103785,
  836587796582035184581116955002020,
  836587806582043464851090110403410,
  836587826582041218301098295103168,
  836587836582045943631095577604395,
  836587846582038406701077708502899,
  836587856582039981011114071602364,
  836590656582053153681201146402478,
  836590666582051284531178422102246,
  836590676582052559731181093502768,
  836590686582053681571222786502032,
  836590696582052406301176172202994,
  836590706582053102491197753002551,
  836590716582054313811162372102459,
  836590726582051618471196697902400,
  836590736582053808191189218502308,
  836590746582052304771202169502696,
  836590766582053464341232768002010,
  836590776582052071141224160702071,
  836590786582051051041118294702895,
  836590796582051517131211843802072,
  836590806582054162151181424502278,
  836590816582050997021158631102276,
  836590826582053401521157218202630,
  836590836582048853231088297404776,
  836590846582052754331207700802574,
  836590866582052766281229607202032,
  836590876582051059421107256704133,
  836590886582054603891190949902243,
  836590896582049920421088490604569,
  836665656682081647371306914902653,
  836665696682067850401309270303949,
  836665706682067120671366067502110,
  836665777170092071301291343202045,
  836665786682073761511310267305728,
  836665816682068194941318623604334,
  836665826682079016331429195802023,
  836665846682080123141238901402947,
  836665856682068850231295705203361,
  836665886682070442761330331705276,
  836666696682088611921315150302054,
  836666716682058604791258820602600,
  836666726682070152791360381804589,
  836666736682064600741307653105057,
  836666806682067025161334587904887,
  836666816682068740421362363605657,
  836666826682074119341320600105479,
  836666846682069411971313980203898,
  836666856682067658611309400604025,
  836666866682092840771192991002275,
  836666876682074134111276053003147,
  836666906682067225471380317802010,
  836667656682065004851264935904473,
  836667666682067076411379177002014,
  836667676682080668431250230103762,
  836667686682063203191290591905376,
  836667706682070376441360217204715,
  836667716682069522461253193103833,
  836667726682062867541273310904146,
  836667736682082678941325331902565,
  836667746682083881171299874704038,
  836667776682061272551305678602093,
  836667786682072270921313845904247,
  836667796682060058201288421802026,
  836667806682068296871386928802057,
  836667826682070985681223177702461,
  836667846682064477871308171504988,
  836667866682072343401407438802036,
  836667886682060809301288054004472,
  836667896682074356281238783702609,
  836667906682082400661072196502637,
  836668666682068779421235415303180,
  836668786682067826341285652203476,
  836668796682067793161250702203503,
  836669716682086961421199381102264,
  836669756682083763571222166802324,
  836669836682067179351378992702061,
  836670736582064410691255042402787,
  836670766682062334401314487202019,
  836670786682086145651475683502180,
  836670846682069715421308074903599,
  836670856682069302271336592104413,
  836670906682086226661414563502082,
  836671766682067198071367448802028,
  836671776682079221501147132802478,
  836671796682073373661307691904450,
  836671806682068203891315952703998,
  836671826682066565491335156804459,
  836671856682064609291284726905494,
  836671866682071100281380131202561,
  836671876682067201391347953503761,
  836672846682086740521277389302368,
  836673676682086877021215134902142,
  836673726682085751871239948902110,
  836673766682075183831409595402015,
  836673806682070521471375075802784,
  836673846682071562941307841703630,
  836673906682084463901325333702431,
  836674676682088590671315345202052,
  836674686682066823241330542204484,
  836674706682068201571366125104989,
  836674736682079121661181509402598,
  836674806682082859741450413302215,
  836674826682067008171366298002010,
  836674856682082783911407222803392,
  836674866682063780181311962402015,
  836675716682082734281440977203646,
  836675806682067001571328529804170,
  836676696682077521571387143003676,
  836676746682062223711297143905065,
  836676796682066669671288602303867,
  836676806682076743041365899403454,
  836676836682070340581360951404795,
  836677656682084625661308550002357]

/-- Rows 7201 to 7400. -/
def rows36 : List ℕ := [
  836677676682076445971318010703401,
  836677686682089106301273906302677,
  836677696682067652401382307602008,
  836677716682066521921279735303788,
  836677756682073294211361713304191,
  836677766682067795711300717104122,
  836677786682086851431200035602267,
  836677796682080491371441966802387,
  836677816682090045511289198702056,
  836677836682084789871426318302077,
  836677846682066492171333545404368,
  836677896682084184261187178902174,
  836677906682088253711277605902053,
  836678706682063115601313416002018,
  836678776682061718961258222003056,
  836678846682084098161447483902169,
  836679737170093850161282020602063,
  836680656682060005861288167302011,
  836680666682087103571382589602016,
  836680676682068155051334264006135,
  836680706682061753151276642204376,
  836680746682079714761316335802774,
  836680756682058277191276638202059,
  836680766682080642371394169403263,
  836680786682079274281315958602870,
  836680808089067441831242940304156,
  836680826682070089201360051005044,
  836680836682073558921409101102168,
  836680866682081279881160983602290,
  836681866682075141961391302204998,
  836682666682080125541120976302634,
  836682706682081886121450727002033,
  836682746682067083451368374502011,
  836682806682068874921322229103802,
  836683676682067056211362754102010,
  836683746682066780321341280704120,
  836683766682087403111357566202178,
  836683776682060289461262961502287,
  836683786682087575831251965602198,
  836683806682066380161333385504631,
  836683826682069178841305873303784,
  836683846682066080161337089502010,
  836683866682077092191416562902064,
  836684656682066956141344779203908,
  836684666682088508291235962902287,
  836684676682074636221410019102020,
  836684686682065306141263023803843,
  836684696682084930181371775402219,
  836684706682086624401152692802184,
  836684756682081848861092130102646,
  836684766682065674111293480804610,
  836684826682060579751301852202033,
  836684837170092222421240468603127,
  836684848069085748431100553702279,
  836684856682086204971302790802830,
  836684866682073463321408866002174,
  836685656682089842911130064802249,
  836685706682080602661417420502883,
  836685716682060217201229545602256,
  836685766682071109041317708405094,
  836685806682069223341284271603169,
  836685826682070241811320308904655,
  836685896682085115511146377602210,
  836686716682068403591345240805028,
  836686726682077294261198986204018,
  836686846682069737661397066802011,
  836689656779090603331108082602345,
  836689836682068005951326588503968,
  836690776682068480471368167403348,
  836765676776048103521062034802374,
  836765756776053095761083985204361,
  836765786776057182971093472004457,
  836765826776071642171096578502167,
  836765836776044599671073250502030,
  836765846776062748611092198802670,
  836766656776044083781082943603654,
  836766666776052411521074961602249,
  836766696776067864111099319905475,
  836766816776056430981093068503844,
  836767676776043419851083062003069,
  836767706776067502641110824309543,
  836767726776053411941079617002495,
  836767736776036995861091252802139,
  836767766776062923661091989302180,
  836767776776050174451079126302479,
  836767846776054696301076146302043,
  836767856582051838151085731704132,
  836767896776044400961078868303020,
  836768656776069479891098195302155,
  836768816776052477131082728703902,
  836768876776036398071095160202160,
  836769676776060849811091094605678,
  836769766776056628051091962803550,
  836769826776057204771084759102012,
  836769836776063688661102232807240,
  836770656776066543871095533702455,
  836770776776036750171096630902104,
  836770846776046811821081430403148,
  836770886776063710840998952602165,
  836771656776049993311063019602118,
  836771666776052021721070679402272,
  836771696776052605891075753902374,
  836771796776052202461073120702240,
  836771896776050950821080056303312,
  836771906582035069041123624802088,
  836772766765139748750578464602042,
  836772826776042755921074048602643,
  836773696776053217971069314302026,
  836773776776051613541061319502020,
  836773806776062842040705633302227,
  836773826776056337961010673102433,
  836774796776049395131069333302187,
  836775796776052003431077490003226,
  836775806776069262521113148514468,
  836775846776053502401073175502216,
  836776666776052338321063701302587,
  836776676776056623771094178704247,
  836776686582048136491080608502997,
  836776766776061404541092368703725,
  836776786776054142781084525402587,
  836776896776052781031067620502032,
  836777666776066440281096005602131,
  836777756776046109081062623702035,
  836777766776051138971081809503388,
  836778776776052221901066161102252,
  836778846776038332441074605702217,
  836779726776041535421074366202899,
  836779766776049311471076517902676,
  836779786776046859731063586802039,
  836779836776049456601068408002079,
  836779846776059322041085944202787,
  836780676776050708901080743702853,
  836780696776067084441118346609960,
  836780706776048541421070798702367,
  836780726776045621251074082702043,
  836780736776053409241081898302804,
  836780766776049869791073384502700,
  836780806776052163181079874303680,
  836780816776047668701062850202567,
  836780856582048940471079889502900,
  836780866776048654061070515102430,
  836781676776051662611074100102823,
  836781736582051259431087979405725,
  836781756776051634841065097702220,
  836781846776059908511086353802140,
  836781896582051550191086393405182,
  836782656776063668181093866602097,
  836782716776055820141092189403446,
  836782777075027811721210017002147,
  836783666582037260841106606102105,
  836783696776060087591087914602481,
  836783706776057260041092934304159,
  836783726776050933731068282402082,
  836783766765139452000577725002262,
  836783786776056341331083807102246,
  836783846776047514001062253302144,
  836784656776052258841082891003817,
  836784666776056538721094519704129,
  836784676776051230201073539002304,
  836784696776048572921069038302293,
  836784766776054618261083944602371,
  836784786776047071051072939002013,
  836784796776051749911076495103147,
  836784826776051725341073369602812,
  836784846776064440691096218104580,
  836786686776050359461069134602059,
  836786766776050208891067588902013,
  836786776776057045551085139902461,
  836786796776051768251075111902978,
  836788826776049679991077731202328,
  836865656682067663241326356904247,
  836865686682068302001288969103394,
  836865696682067418801320997103858,
  836865706682067842411322759704762,
  836865716682067023621356879502009,
  836865736682067244681327251704085,
  836865746682069156041292056403126,
  836865766682068183621320930004434,
  836865776682067144801328878304008,
  836865786682067755121317384003680,
  836865796682075974831234588603542,
  836865836682068721381287114603141,
  836865896682068534801316301904034,
  836866656682069123641324092304890,
  836866666682069102681315202303942,
  836866696682087790221311806102066,
  836866736682068718131296691903394,
  836866756682067053741315317405012,
  836866786682066308521324433304316,
  836866806682067025551334595104887,
  836866856682068362031266925503201,
  836866866682065131231322397502026,
  836866896682067931161312868203591,
  836867656682065968641316390704402,
  836867676682068782791295888903253,
  836867686682068846971310073803841,
  836867696682072556461350613603766,
  836867716682086525951110388102335,
  836867746682072314601264055104221,
  836867766682066847741307913104181]

/-- Rows 7401 to 7600. -/
def rows37 : List ℕ := [
  836867776682077134471338319304957,
  836867796682066528231325076604077,
  836867826682065930601331702202039,
  836867846682067771431330231204237,
  836867856682067445581378794002018,
  836867876682069676271311675503706,
  836867906682067063711358955802016,
  836868666682067390391299007103702,
  836868676682074031811201082302722,
  836868696682081985791182241802213,
  836868736682068406371291629404093,
  836868746682069154921299190703525,
  836868756682067515701300101803886,
  836868766682066691801320617703916,
  836868786682069075271286107603247,
  836868826682068538031283860503220,
  836868836682081664051142878302325,
  836868866682068868231311508003860,
  836868886682070112941294894403482,
  836869676682073046381264260504572,
  836869686682067560441322958604007,
  836869696682066426971311330903801,
  836869716682067534541287944103450,
  836869746682066332491319242104037,
  836869776682067901961285473303388,
  836869786682062836721313724302016,
  836869796682068127141313368903709,
  836869806682068220951278522002974,
  836869826682069236451291412103207,
  836869836682069235231321388804372,
  836869846682066891451322755603643,
  836869886682077415871341702504526,
  836870656682069318361289654703200,
  836870666682069579371314298803755,
  836870676682069515721308103903673,
  836870686682069721331297815803640,
  836870696682067928331232971502633,
  836870706682068148811317029803673,
  836870726682068555961326242704318,
  836870736682068349071317283404257,
  836870756682067931111278352803233,
  836870766682066431271317146904051,
  836870776682067710411277398603082,
  836870786682066522081304542703702,
  836870846682067587001331892504152,
  836870856682068126791278364402984,
  836870886682080843501390572103247,
  836870896682068370021291875203280,
  836871666682069724751318133303988,
  836871676682067812211303448404182,
  836871706682067631051300520203647,
  836871746682068090531301402703748,
  836871756682068503211292642503345,
  836871806682066776181312000304099,
  836871826682068734171293473703312,
  836871846682067476571299512103896,
  836871856682068591221316950904116,
  836871896682069074241292544503181,
  836872676682068130101300185903292,
  836872696682067505361331550504493,
  836872806682068830031267127703168,
  836872886682059251821284634302131,
  836873666682067835391332232805018,
  836873676682069285011343111804657,
  836873686682065866941306691204598,
  836873716682068254941311389203780,
  836873726682066435041339269304467,
  836873766682067092841357076902010,
  836873776682065837751332114702013,
  836873786682067001221365971902003,
  836873796682068393761311676203739,
  836873806682066955171342219603913,
  836873826682091886761179787202134,
  836873856682066646681326722304231,
  836873866682069628661322293904044,
  836873906682069840551300645503656,
  836874656682067801471321330404569,
  836874676682068766741317125204021,
  836874706682066155271315485504309,
  836874716682067267941305128603689,
  836874766682069702181294537403496,
  836874786682068901511322475803771,
  836874796682069409261321539404136,
  836874816682069166401289882203276,
  836874826682069114801306074803804,
  836874838669094728781197549802735,
  836874866682067977331331572604500,
  836874886682076891091316173303585,
  836874906682069190821317733203608,
  836875657189094165821201632302184,
  836875666682068211911329410504346,
  836875676682067694241305359203771,
  836875696682076221681355304404198,
  836875706682080850351399068103220,
  836875716682066777211308190304031,
  836875746682078980861348078703598,
  836875756682068508021329641004113,
  836875767189093838401202190102108,
  836875786682067564131315907004339,
  836875796682069748651312084103830,
  836875806682067814211297197703611,
  836875816682069783341309297803673,
  836875826682074830941208262203116,
  836875876682077702511244601303181,
  836875886682078482921275968403201,
  836875908669094558301195272302784,
  836876676682068248381289767703447,
  836876696682076415841382064305576,
  836876716682079026141389260103890,
  836876726682078957311412110102696,
  836876736682081263771408792902955,
  836876746682083956431294194404257,
  836876756682075520691377300504064,
  836876766682067770931326133804021,
  836876777189093854971200700002125,
  836876786682067398621379685102026,
  836876796682076436421410551402012,
  836876806682067417681312209404039,
  836876816682068499661292201603339,
  836876826682069536181298538403722,
  836876856682067517731314687103782,
  836876866682067081971286458703581,
  836876876682076557241222146403804,
  836876886682078559001277893103417,
  836876896682068379661316452304083,
  836877656682067043431343964003804,
  836877676682067078151371639002013,
  836877686682072003501253031103033,
  836877696682068371161316017203942,
  836877718669092678091162525302394,
  836877726682069189711305109503913,
  836877746682067591201330875304274,
  836877756682068448971264403303192,
  836877778669094555471192136803083,
  836877796682068742051314683004461,
  836877816682068150531221011202299,
  836877826682066930841361187902016,
  836877866682067715991313957703736,
  836877876682075888001293164302833,
  836877886682074496301246173604267,
  836877896682068364961315140104008,
  836878656682070325951309994604336,
  836878686682067514791284684103411,
  836878696682067802221280237503585,
  836878716682076895601230461303197,
  836878726682068503911307613503526,
  836878736682066382601330144205090,
  836878746682065922081317725504604,
  836878756682075035171259449804513,
  836878766682068244631314102603877,
  836878796682067306181314191604395,
  836878816682080029011125088202640,
  836878846682074321051322262305563,
  836878866682080492141259872203001,
  836878876682079212761269229503148,
  836878896682067254731365338502164,
  836878906682072150561252316403640,
  836879656682084511941345078202591,
  836879666682068576501332399204585,
  836879686682084159931344544402820,
  836879696682084276481342052402741,
  836879736682066699391323059204051,
  836879766682069249731310868003722,
  836879816682077326121282505503165,
  836879826682069256001321075404415,
  836879836682065580401321284002098,
  836879856682067038941300823903532,
  836879866682075235571294325503076,
  836879876682083239681289454002751,
  836879886682068218881321126504133,
  836879906682081894801217144402869,
  836880656682067068441359194102020,
  836880676682067847331289675003585,
  836880686682067053621345663803919,
  836880706682068130091325245303867,
  836880716682068946271285904503198,
  836880738669094689471197535902617,
  836880786682068594991299614103371,
  836880806682066708611311788103952,
  836880817189093906971199705702125,
  836880866682068109961281110103460,
  836880876682067293271323794003887,
  836880888669094499611190556902515,
  836880896682067969751325799004241,
  836880906682068762201266469103191,
  836881696682067433241243611904041,
  836881716682068096731288109103460,
  836881726682065349441296335804812,
  836881756682067840521290336603968,
  836881766682068806431242651603191,
  836881786682069103901242888002919,
  836881816682067717891293572203919,
  836881866679073855621214837802676,
  836881876682076584601247661203575,
  836881886682066133431311915204267,
  836881906682074602921279187402991,
  836882656682066129691319605004271,
  836882676682067814181291326403608,
  836882686682068358051325256504776,
  836882706682067250381359472903750]

/-- Rows 7601 to 7800. -/
def rows38 : List ℕ := [
  836882726682069158571254716603509,
  836882756682067563981324362904031,
  836882778669093927541158135702568,
  836882796682073531781252845303034,
  836882808669093710971158359802676,
  836882826682066912671310081304657,
  836882836682067518501355141903320,
  836882848669094646411192086602728,
  836882856682068308571290611103285,
  836882876682071218501307660204172,
  836882886679072032711229631802499,
  836882896682067043451251550903493,
  836882906682068309141226382002499,
  836883656682071961441242787302486,
  836883666682070005061324706803705,
  836883676682068115871320965104647,
  836883688669094412661190457202554,
  836883696682068529381293829503414,
  836883726682067701411307840803755,
  836883746682069250071320671904172,
  836883756682067072311374891702026,
  836883776682067235301314532504482,
  836883796682067993331281871503476,
  836883808669094138931186585702190,
  836883816682068272791323424404067,
  836883846682068116721322202604385,
  836883866682068674661318259704080,
  836883876682076938901174371502456,
  836884666682066868631334253204592,
  836884686682067219111249230703362,
  836884696682066784871309214303928,
  836884706682066671051321161604083,
  836884736682068603961283992603198,
  836884756682066774881352763702010,
  836884786682068878041320448803969,
  836884796682068739851302050103447,
  836884806682068105891294900003805,
  836884816682071768921287933704149,
  836884828089069113361225812902499,
  836884836682069654281255839104329,
  836884846682068755151295073303345,
  836884876682069670841248965102919,
  836884886682069454481286417703236,
  836884896682068661741318774903713,
  836884906682069884821228870102492,
  836885656682086492451236816802108,
  836885666682066557781349200002013,
  836885678669094428831198161202515,
  836885686682068664931316799603991,
  836885696682068484981298793803526,
  836885708089068915691225009602492,
  836885718669094246181188415002253,
  836885726682068456091266523303001,
  836885756682075907641270966203601,
  836885766682068801151320778004270,
  836885786682068776761381201502410,
  836885796682077817821416202002568,
  836885816682067568261293901203525,
  836885826682064951381298073804937,
  836885836682082046491221603702689,
  836885856682068090481291276203476,
  836885906682067049561302300803068,
  836886656682068169931330426004329,
  836886696682067772491301789204100,
  836886708669094590521198156102653,
  836886716682069535721299931003667,
  836886726682066992601333641404727,
  836886736682075356711224949203391,
  836886746682081275961295407202807,
  836886766682067759211362851503903,
  836886786682066717091251577703299,
  836886808669094332251195040402197,
  836886818089068801381223611702351,
  836886836682068930571319656703801,
  836886856682082794241270925605281,
  836887676682082641661251672102699,
  836887686682069565271313935903856,
  836887696682068712221318342003919,
  836887708669094576841192595703089,
  836887716682067938991280720303394,
  836887726682068804591300642403444,
  836887736682081830031443625803709,
  836887746682081272181266065203099,
  836887756682069995091322325303850,
  836887766682066808781329276504566,
  836887776682079932601270018504953,
  836887786682069650871312230103857,
  836887798669093865351174188802240,
  836887816682088082451252727602102,
  836887826682068919851288525803627,
  836887856682068286311222598002279,
  836887866682087428071280420302098,
  836887886682084506541227835302541,
  836887906682068815151294331903234,
  836888657189094210001199942002361,
  836888666682073205171323514105937,
  836888696682068731581316409304037,
  836888706682075877671324636703200,
  836888736682085764141315210002577,
  836888746682071507431268261104428,
  836888758669094413511198813102486,
  836888796682069268101290290003142,
  836888816682069093841284206803112,
  836888826682067778541228413102463,
  836888846682070561111249375903100,
  836888856682068658261287443103401,
  836888876682071002771248622202554,
  836889666682066214751316560704234,
  836889706682076887541240076203408,
  836889736682072085491345956505045,
  836889746682067772631286485503663,
  836889776682067399281325853704172,
  836889786682067409901286974203365,
  836889836682062824381313671102033,
  836889848669093765541160115202449,
  836889876682066059641311109404320,
  836889886682085147551377343002490,
  836890656682067989811305861403804,
  836890676682092706171173312302246,
  836890696679073892411199930803076,
  836890706682074005951325240104946,
  836890726682067103601345045003804,
  836890736682074315791200779602682,
  836890746682071080761355456304343,
  836890758669092992381162888702682,
  836890776682066080171311746304254,
  836890788669094809341197790502735,
  836890798669094575241195565802666,
  836890816682074465701203651802768,
  836890826682068583961316707204116,
  836890836682069424571309163503673,
  836890846682069687711310190103581,
  836890856682067879811277985703001,
  836890866682067520161305306003841,
  836890876682069187611287009503181,
  836890886682075183581268609603050,
  836890906682068199161314566403790,
  836965776967088779401014237210502,
  836967776967088289591006194002328,
  836967796967089547421030080602834,
  836967856967087105271010088610306,
  836971836967089555010897277202207,
  836971856967087831731001100602019,
  836971906967086585061014293704640,
  836973666967090330511018598109304,
  836973736967089064070890459502035,
  836975756967090188421006080103247,
  836976656967089900991031233002981,
  836976746967088291671004454802050,
  836976846967089109821013854911205,
  836977656967085617041000580003508,
  836977676967087689891018764505452,
  836977726967086737411000342502011,
  836977796967087932491030178202960,
  836977846967089046670993105802048,
  836977886967087149251001919102018,
  836978766967090086071031223702982,
  836980676967087241771017332103781,
  836980836967086681781002258102022,
  836980866967088964670995197202130,
  836981696967089016791005347102350,
  836981776967089894431016448509841,
  836982666967088342511013379011151,
  836982796967086564921000177302170,
  836983656967087797070990063702018,
  836983676967087533871018278305117,
  836983686967089753421007806103714,
  836983776967088498171019313005465,
  836983846967089098210903809902062,
  836983866967089400630995925702010,
  836984656967087726601003138902056,
  836984696967089014351021752503708,
  836984726967087620141024957203670,
  836984738069089215921044784902997,
  836984776967085999971006198206056,
  836984786967090989361003738102032,
  836984826967089880991036561802814,
  836984856967090803081022828711649,
  837065667075037796411194615102228,
  837065767075038314231222194402075,
  837066727075038580621195793802141,
  837066737075037822601211378402015,
  837066837075038160141187629002021,
  837067727075038471831197382702130,
  837067737075038737811194090302056,
  837067837075038281311199340402036,
  837068727075038245531195793702041,
  837068837075038538461213842802065,
  837068877075038180711210128302073,
  837070667075038061461199395602100,
  837071737075037649511202446502025,
  837072677075038496021198538002060,
  837076737075038005151215363202056,
  837078657075037870981206293402035,
  837078737075038251691187197802062,
  837080677075038499431209915702077,
  837080697075037906621197160602067,
  837080727075038384311204820402062,
  837080737075038690341203889602101,
  837080837075037907091191452102098]

/-- Rows 7801 to 8000. -/
def rows39 : List ℕ := [
  837082677075038461101196394202068,
  837083677075038425211209547602041,
  837083737075038622801199046402041,
  837083767075037569011209209502041,
  837083807075038170581195427302068,
  837083867075038561491216179602080,
  837083877075038244691194612102253,
  837084737075038435441215654302086,
  837087737075038123301190942402064,
  837087757075038037301212089202079,
  837087767075037768101202535002036,
  837087807075038653271193156302081,
  837165838089064745371224772702292,
  837165898089062621121231443902223,
  837167798089066550221225703802253,
  837169788089062694691240804902279,
  837169838089064532881251453602846,
  837173668089064585671253780802762,
  837177698089067939221193789502553,
  837180738089063111761216813302249,
  837180748089067350731241677703873,
  837183848089067368101233643902582,
  837365666682068628881344996505050,
  837365688089068988691226484002394,
  837365706682076261341211127503903,
  837365736682073762631230766002541,
  837365746682073015851408359702043,
  837365776682069307321317114603709,
  837365796682070368951247434803493,
  837365808589058262181259077202584,
  837365816682074498951238992802754,
  837365826682067197621299510703617,
  837365856682073520611237288702404,
  837365876682086261391324802802420,
  837365886682082450341238248502820,
  837365896682069259611294643103277,
  837366656682069902441240707102400,
  837366676682068120401387024602026,
  837366686682084242301308189702551,
  837366706682065284341318801502249,
  837366746682071317411300081503401,
  837366756682072485361352369503759,
  837366786682066931121305646004021,
  837366796682065739811272053203919,
  837366856682083637351422392802892,
  837366866682068554721255097403083,
  837366876682082439251414997603214,
  837366886682068904281297574003345,
  837366896682082123901428558304031,
  837366906682082690551418823402958,
  837367656682083294211414932403017,
  837367666682083511421438549104139,
  837367726682069335631276604903188,
  837367746682076536411212246703706,
  837367756682072312211374673305113,
  837367776682068457251278878702984,
  837367786682067493491281852203348,
  837367796682076674851239507103453,
  837367806682066024811286768704779,
  837367876682072533311321673505094,
  837367896682061888741268028404143,
  837368666682085737111369971002174,
  837368686682068500111247363803476,
  837368716682067568161244669104152,
  837368746682081054571294838102807,
  837368776682074957241279023502821,
  837368786682066577111324139903985,
  837368826682070166651232958002328,
  837368836679071978261232654602300,
  837368876682074760211255080903968,
  837368896682065921381281783902985,
  837368906682067340071251760603509,
  837369656682068532411292024803181,
  837369666682069250861246406402932,
  837369676682067957701277038602955,
  837369686682074548451365909903621,
  837369706682069425861252802903722,
  837369716682067343331266067402951,
  837369746682080057561224989102821,
  837369766679073412341222674202709,
  837369786682074590771266560703503,
  837369816682076686771234251503099,
  837369846682069914761232744502607,
  837369866682069236171232907903050,
  837369876682082011531189501302279,
  837369886682070986171295676803450,
  837369906682065380241295393904953,
  837370656682070217491235239602328,
  837370676682069614241237301802722,
  837370686682073617171227101902591,
  837370696682066581191293995204100,
  837370706682070739331229837402233,
  837370726682072675911267975304464,
  837370746682068194401257507202709,
  837370776682080084261191354802499,
  837370786682086404341203448602188,
  837370816682060954481288574204566,
  837370826682071127051324362005310,
  837370846679073847741198835902906,
  837370856682067582531362225903319,
  837370866682070168681398935902088,
  837370876679072282511229954202400,
  837370896682068225111225026402607,
  837371706682074997651241699703020,
  837371766682068085491264792003099,
  837371776679073726661221344402469,
  837371786682074425351267634603585,
  837371796682076669381260402704126,
  837371836682072835111333356003946,
  837371846682066007721308191304260,
  837371856682070180601261703304199,
  837371876682068082241228527102640,
  837371886682078798971217601303083,
  837371896682082497381357924503476,
  837372666682084541091339358002417,
  837372716682079928331300005602656,
  837372736682083380841310041802633,
  837372746682079892931316707902958,
  837372766765141383770528859702000,
  837372786682068202411234248802936,
  837372866682072784521333864304002,
  837372876682068778881321223403781,
  837373656682078298301217757402653,
  837373686682083179101231547402695,
  837373696682069108251265919903733,
  837373716682067638221288990403756,
  837373736682069570581317711903798,
  837373746682068749601234289203099,
  837373756682069270951263127503811,
  837373776682071199571251474503408,
  837373786682082403901232935302951,
  837373816682072603361262774804198,
  837373836682066350821261663903100,
  837373846682069236401244254503188,
  837373856682070358811312962704218,
  837373886682076265291274068903207,
  837373906682075834551228336504001,
  837374656682087101321310378402177,
  837374696682069989931226085802476,
  837374716682068560351292746503290,
  837374748089067192641244619603181,
  837374756682072044181331341604457,
  837374776682072859501233993902328,
  837374786682062133821304220704881,
  837374796682071418611224859402381,
  837374826682064461061303975604592,
  837374836682086544021324680102561,
  837374856682078218331215434703073,
  837374866682068418571301269403394,
  837374896682063014391311813602033,
  837374906682082607521232318702801,
  837375676682079240591245374203266,
  837375746682080334861240205102919,
  837375756682069751471343512804180,
  837375776682084713901339956702863,
  837375786682084842071340808102928,
  837375796682084978811222172902541,
  837375806679071689631224924402404,
  837375816682082763481228905602633,
  837375886682069758031313368103476,
  837375896682071279801266568504100,
  837375906682084337951364621702390,
  837376656682067240051261525803247,
  837376666682075000151244978403247,
  837376676682076960711240536603690,
  837376686682069365881232283602512,
  837376716682076235061212523203690,
  837376736682066940211356833002197,
  837376746682089170291279462702135,
  837376776682075524971331268103598,
  837376786682086439531313385302325,
  837376816682065072301264995504132,
  837376836682083611331237126902667,
  837376846682069769261290279803460,
  837376856682070129151230116202427,
  837376876682068268581234888502912,
  837376886682079490291263456903070,
  837376896682066484481261949603300,
  837376906682080604501396426503197,
  837377656679072074731223746802299,
  837377696682084421661325727802443,
  837377706682074029401332860605287,
  837377718089068895201222845402312,
  837377736682066358991248152103231,
  837377746682071340631304468104005,
  837377756682069400361326115505292,
  837377766682086714961307910002220,
  837377796682073225641238266202365,
  837377816682071795061242458102600,
  837377826682072248671288428604362,
  837377856682067713081271577802978,
  837377866682070158381321475704733,
  837377876682069650551260296903562,
  837377886682074756081234211802722,
  837377896682066783771259051202972,
  837377906682072119131250585802584,
  837378656682067207261268005803122,
  837378676682087072731302154402049,
  837378716682069445021307087903739,
  837378726682067346341264345502804]

/-- Rows 8001 to 8200. -/
def rows40 : List ℕ := [
  837378746682071635671252202803205,
  837378756682068126671291242403582,
  837378776682076895321234704002938,
  837378786682081191321336366603657,
  837378796682085586401334790602634,
  837378806682068488671235705803083,
  837378816682089201091275097502250,
  837378826682071989651259792803231,
  837378836682068707661262885103211,
  837378846682074803911306168404251,
  837378856682068075951232872902936,
  837378866682081767441422390003634,
  837378906682064563931294690604796,
  837379656682072325011354029703969,
  837379666682069175351287249903362,
  837379676682068859731284487103300,
  837379686682067998851265727102952,
  837379696682064208991269635803850,
  837379706682068564441256219703247,
  837379736682078238461256515805773,
  837379746679074364201216912602749,
  837379756682075359641237568603313,
  837379766682071675611311525803706,
  837379776682078460731258033805741,
  837379796682067971521220949402273,
  837379806682068030341221445402272,
  837379816682066500321256837903313,
  837379826679071899961228446902358,
  837379836682067229911260311303312,
  837379846682068504991276138203092,
  837379856679071704061229847002378,
  837379866682073099191408359702044,
  837379906682080406541296427602591,
  837380656682068358101330616504861,
  837380666682087557861358728502109,
  837380676682088684951315686902016,
  837380696682082335911451398702020,
  837380716682075859871285272402794,
  837380726682080401191302242902722,
  837380746682071894291347807603969,
  837380756682073497181235778602348,
  837380766682075378991255178903824,
  837380786682068486391223090602328,
  837380796682075077341380384504260,
  837380816682073000201312579805002,
  837380826682073000561292544104451,
  837380856682070548901326340105567,
  837380876682084962341372945502607,
  837380896682088016851291854702096,
  837381656682083594421449516902171,
  837381666682086728761296751802249,
  837381676682070839321270010203592,
  837381686682069355781252079503968,
  837381696682074062301322726005399,
  837381716682079489491242884302958,
  837381736682059455131295285102020,
  837381746682075042211241940702989,
  837381756682067219431326635503909,
  837381776682072096201298769803693,
  837381786682079279341271986603264,
  837381796682071665321245102902499,
  837381816682071870701302023408825,
  837381826682076413211301803002804,
  837381836682074626681228694202722,
  837381856682069909201286917803280,
  837381866682077100881214180803687,
  837381876679074178351214454902755,
  837381886682074366111225279402558,
  837381896682077370681240508103264,
  837381906682074346811335563403871,
  837382656682077606981247562203575,
  837382666682068232641256164803476,
  837382676682079679521264121403083,
  837382686682077765581290779802821,
  837382696682076343841334571904549,
  837382706682081369981447248602479,
  837382716682077964721283774503214,
  837382726682071728551256846003450,
  837382736682076093901410575902023,
  837382746682085698041237730602115,
  837382786682075237031280125102854,
  837382816682077230521191295103000,
  837382826682080767911230112003280,
  837382836682070360541312080004461,
  837382846682076270981229729903060,
  837382856682073082281259230308234,
  837382866679073885421212332802400,
  837382876682083125571346930003687,
  837383666682077842291283136303108,
  837383686682071856291287248303982,
  837383696682077981391291309702650,
  837383706682069055561233233104198,
  837383716682083586411240478402699,
  837383736682072362311295300303720,
  837383746682072543481244385902427,
  837383756682071137191279507604093,
  837383766682073103151240902102509,
  837383786682072454351261011504001,
  837383796682089906981304156302020,
  837383806682069293701306072003860,
  837383836682069618451265964803542,
  837383856682069132731268420403264,
  837383866682076099051228922303690,
  837383876682076171831208367003690,
  837383886682070621681239423502361,
  837383896682064547901308540005212,
  837383906682084422191233584202821,
  837384656682082778221238313402958,
  837384666682066986981262077602951,
  837384676682078702121231620603889,
  837384686682084892261225159402155,
  837384708669094108691192628502365,
  837384726682072329841296107303644,
  837384736682072987011352041303719,
  837384746682082510391338527602998,
  837384766682084949161397616403148,
  837384786679071753341224435602493,
  837384796682082847081233620002361,
  837384826682069821791249293503509,
  837384846682082907531340416103900,
  837384856682072062431296549403526,
  837384866682076592151243229303450,
  837384876682083175781345836103720,
  837384886682070228171244756302519,
  837384896682070595081241335602486,
  837384906682075085551366359503713,
  837385656682069131351267878903083,
  837385666682076491311248476103510,
  837385676682082772591233271402391,
  837385706682079838421262973603231,
  837385716682067505141280869103116,
  837385726682078857781241192103038,
  837385746682084811481224158502401,
  837385756682083073991230065802840,
  837385766682083223391341030003926,
  837385776682081442751331442003874,
  837385796682079276651277052303034,
  837385816682069019111256612403660,
  837385826682070393971264967703549,
  837385836682067281731259556703240,
  837385866682069681531282116403365,
  837385876682069155171276986303093,
  837385886682083575461239472902985,
  837385896682082984071241220802870,
  837385906682082334661240388102788,
  837386676682076239831305193103231,
  837386686682073051211337204603722,
  837386696682066489811319999904447,
  837386706682078347191272626103083,
  837386716682078123631245529203280,
  837386746682070547951360980104402,
  837386756682076774361330391603657,
  837386766682083052121433266603641,
  837386786682073395321362308804149,
  837386796682077550741282223603378,
  837386806682075549561294638602899,
  837386816682067918121257935603083,
  837386826682082377991232554602909,
  837386856682069573141396654902016,
  837386866682073067641237657302489,
  837386876682065283761319719102089,
  837386896682081700121342317603575,
  837386906682060812341234507102220,
  837387656682079249541206254103060,
  837387668089066806661247090003965,
  837387676682075863421226301404054,
  837387686682080989931338591507413,
  837387696682062784911290372805223,
  837387706682075813211224449804035,
  837387716682075438931241755702735,
  837387726682080582601295716004533,
  837387736682076071071227557503700,
  837387746682074472321248576604533,
  837387756682075952521246152003575,
  837387766682075870831230610703690,
  837387776682072012381304602503969,
  837387786682072150971304169403477,
  837387796682077315661189068903132,
  837387806682067129261255567903201,
  837387816682069030551269195203234,
  837387826682076197921295080002985,
  837387846682082156211233397202699,
  837387856682071483381223996902365,
  837387866682082140371232808202699,
  837387896682072493161242296802483,
  837387906682070511721235094802312,
  837388656682069469381289056603398,
  837388666682071491411225956402312,
  837388686682059161111244287902913,
  837388696682059950361285481002033,
  837388706682072613791324621004717,
  837388716682071969341325379304812,
  837388736682074821811399030702827,
  837388756682066828961257981602961,
  837388766682076688761271032103152,
  837388776682085025361230759102492,
  837388796682076014871203363903070,
  837388806682075922891225444804038,
  837388816682066148781245645103500,
  837388836682072987641408165602082]

/-- Rows 8201 to 8400. -/
def rows41 : List ℕ := [
  837388866682071866221266334704789,
  837388876682082468891451342902001,
  837388886682080341891250404903159,
  837388906682066003281313905104346,
  837389696682070901301244287202411,
  837389706682066689771309074504166,
  837389726682071020541247071102508,
  837389736682083358861313238802505,
  837389756682072545441317821604605,
  837389786682078095411187666302748,
  837389796682072746371286904004848,
  837389806682079716071235279803057,
  837389816682077202631234976003310,
  837389826682061947401280356204199,
  837389836682067566441345208904759,
  837389846682086882631234103102099,
  837389876682084049591234553202601,
  837389886682068052411334470406200,
  837389896679072546641231580302610,
  837390656682078041791419931302558,
  837390676682069218301380020103542,
  837390706682066000531260427702873,
  837390716682067387341316117803631,
  837390726682070002231284865403483,
  837390736682071245551285215303854,
  837390756682075129311278829802995,
  837390776682068362081266925703201,
  837390786682077001131187587802843,
  837390796682075802941283562902860,
  837390816682066963401315565605078,
  837390826682077103441188690702853,
  837390836682076465381265585703201,
  837390846682070647591232064002299,
  837390856682076558691257211103427,
  837390886682078713731224556202991,
  837465656682074932791208456103142,
  837465676682078524521283072702886,
  837465696682076858851281934103618,
  837465706682076328821221007603804,
  837465716682076376671197103902804,
  837465726682084223651338332902741,
  837465736682076814841312471603359,
  837465756682071632381311236703624,
  837465766682085351061327657703077,
  837465816682073875101336363204999,
  837465826682069981491290960403198,
  837465836682068334491308248703450,
  837465856682081163801304362802680,
  837465876682068278631315466404057,
  837465886682077031721340185604657,
  837465896682076837471337948805127,
  837465906682077230191339740904733,
  837466676682081010841287845403082,
  837466706682074837541317155204136,
  837466756682084323621257519002581,
  837466786682081834301251658403100,
  837466826679072120741236104502401,
  837466836682070730681239663702443,
  837466846682070427831238989302417,
  837466856682072987031352041303720,
  837466876682066163581280949103247,
  837466886682083981131447568402329,
  837466896682086340871346500802082,
  837466906682071046331288901703411,
  837467656682068461451329498604133,
  837467686682072273931260622703303,
  837467696682068150091259758103690,
  837467706682076808611276890203250,
  837467766682075472001295857903100,
  837467776682073880071270448306361,
  837467786682073091721322881605544,
  837467796682068496121298977603510,
  837467806682072923661291503804497,
  837467816682078069621399442503123,
  837467876682088290331214836602132,
  837467896682074322321240371802617,
  837467906682077567751257399903101,
  837468656682070808571318780805160,
  837468686682067484711266534102854,
  837468696682067471001270215003067,
  837468716682083810961259247702657,
  837468726682075452291342304404891,
  837468736682067147401257905903247,
  837468746682060111991228582302210,
  837468766682072689161241526703313,
  837468786682070542041242573702558,
  837468836682086074331414948302066,
  837468846682070479741246862002453,
  837468856582060271581230359902329,
  837468866682070382001232546402312,
  837468876682067878151227082902548,
  837468886682070586591244478402375,
  837468896682071337141259276003533,
  837469656682077147411317703702985,
  837469686682071322921227736402348,
  837469706682070254581239555502342,
  837469716682069835031228407302525,
  837469726682067893711317714704395,
  837469746682067845041307089203713,
  837469756682076450011277852306594,
  837469766682083046551235266502837,
  837469776682077681061246616003231,
  837469786682056858301270207002010,
  837469816679071815591232152002404,
  837469826682072683451296757003841,
  837469836679071881011233563402407,
  837469846679072432631232126502404,
  837469856682072130551238032902404,
  837469866679072348141231129702401,
  837469876682076984421337612805163,
  837469886682076984981338915604966,
  837469896682070005871297332103562,
  837470666682081615741335539603815,
  837470706682069700431295854803595,
  837470716682084478121228899002250,
  837470736682074361491240098702644,
  837470746682072764471247687502522,
  837470756682077402351304765002752,
  837470766682077435531301343203083,
  837470776682066160031257667603149,
  837470786682071632271250699302752,
  837470796682071966791297993303549,
  837470806682077093141186302002984,
  837470816682067042761313215304441,
  837470826682077471641217648603492,
  837470846682079905821222691003018,
  837470856682083301971443684703716,
  837470866682071245461312427204762,
  837470876682074060241335181504648,
  837470886682077196301338999004799,
  837471656682086297921239434102131,
  837471666682076411901225330903690,
  837471676682077096111344944403201,
  837471686682077194621342712504500,
  837471696682083918741237080702591,
  837471706682059788891275578402131,
  837471726682061281981240049602300,
  837471736682070659271230924602328,
  837471748089069390931224434402282,
  837471756682080566521289738702404,
  837471786682076342731235157003201,
  837471796682066184671257441303079,
  837471806682073556791253310203047,
  837471826682075398851298451703050,
  837471846682081111571214490803559,
  837471856682084316721318777702312,
  837471876682078214461244571803280,
  837471886682058874861284208702030,
  837471896682076292141332604603965,
  837471906682067907791273207203231,
  837472656682067011601249786203296,
  837472686682068621921277965403375,
  837472696682077911321240006603201,
  837472706682082624771356005003257,
  837472716682079367331284278302781,
  837472726682071883641277793404287,
  837472746682078813521189106202831,
  837472756682059067201249170602394,
  837472766682083907231306374802384,
  837472776682077041441214074103588,
  837472786682062185431307618805445,
  837472796682076043341228931103699,
  837472806682069720301263369303624,
  837472816682078960991276660103155,
  837472836682070683461316457504477,
  837472846682070164531251688903194,
  837472856682076124691199028003149,
  837472876682072701501360388204221,
  837472886682085053301325333302926,
  837472906682076756711259605603165,
  837473676682068756391272101203050,
  837473686682070082001273629203549,
  837473696682076443131211368803739,
  837473706682066609381252465103247,
  837473736682067698821250582703395,
  837473746682072219271265333604766,
  837473766682070899201241516702427,
  837473796682063004441296167805609,
  837473816682070472891293421803384,
  837473826682076695861391148603733,
  837473836682069650941265383903598,
  837473846682069250901332481204520,
  837473856682078203581419067702555,
  837473866582060911881237827802268,
  837473896682085017091230692302814,
  837473906682074136961207785102869,
  837474656682081623911246904202800,
  837474666682069227171272185903348,
  837474686682067963861225299302502,
  837474706682081501171190370302292,
  837474716682077280001276170903050,
  837474726682086752931282755702233,
  837474746682077315691189068803132,
  837474756682079975171232596502980,
  837474766682078216251340335804418,
  837474776682076461961212352102056,
  837474786682069529601273116203320,
  837474796682076804701328829103431,
  837474806682082167811234593702778,
  837474826682068276181357891205810]

/-- Rows 8401 to 8600. -/
def rows42 : List ℕ := [
  837474846682080042361302451302581,
  837474856682075954731198462302725,
  837474876682070492161243854002443,
  837474886682087101321310378402179,
  837475656682076372091220985403798,
  837475666682080095191214185503506,
  837475676682080711781219636902787,
  837475716682086485411259005902499,
  837475726682082571121236564302722,
  837475736682090208111289859402066,
  837475746682072559741261883704549,
  837475768669094615971199280802994,
  837475777189094805011199769703886,
  837475788669094705661197312303988,
  837475797189094061141198330902594,
  837475808669094544591195360203194,
  837475818669095125921194128403989,
  837475826682083917821236086602706,
  837475836682092375921169885403092,
  837475848669094170861194533402577,
  837475858669094810751195266604188,
  837475868669094469981192183503191,
  837475878669094425721191734503191,
  837475887189094169671202477902496,
  837475908669094449031195582202994,
  837476658669094660571197050003988,
  837476666682074495881222281402949,
  837476678669092720791164299103191,
  837476686682074280471222889702594,
  837476698669093224381167979202994,
  837476708669092495481162678004284,
  837476716682072748371284950804858,
  837476726682092175401202135002495,
  837476736682085784861330209502958,
  837476746682090597471207751902397,
  837476757189093440091196472602298,
  837476768669094459591198970603493,
  837476778669094152401185696202298,
  837476788669094726141194063903890,
  837476798669095083411196182704189,
  837476807189092977311199049602348,
  837476817189094363851199808803791,
  837476836682092127881201779102495,
  837476847189093384861195896102358,
  837476856682091739471177105202397,
  837476867189094360271200291803792,
  837476878669094420971195076603493,
  837476887189094452291201432803792,
  837476907189094731891199627303896,
  837477656682072067021250699702525,
  837477686682092725261170486502696,
  837477698669094568341190947004783,
  837477707189094163191197751602994,
  837477728669093314911170290802896,
  837477738669093287001161544503988,
  837477748669094453551197305103489,
  837477758669094709921195238804188,
  837477768669094704251192650704287,
  837477778669094927171196772904585,
  837477787189093809061199062402495,
  837477798669094470721191348903194,
  837477808669094286741197402203890,
  837477817189094169041198595702847,
  837477826682066534451257015702998,
  837477848669094490031190062903195,
  837477858669094992331195637504287,
  837477868669094943921195194904480,
  837477878669094469301198204403690,
  837477888669094575061191389704487,
  837477906682077041481340103004701,
  837478656682088731861315674602017,
  837478668669094501451191950803194,
  837478676682093144611177674802794,
  837478686682083378631233064302821,
  837478696682091992611200420802495,
  837478708669094632531198236703739,
  837478718669092603351161307303988,
  837478726682071976081245380902492,
  837478736682076085501239140103575,
  837478746682074565681284041602892,
  837478756682077913951183566703119,
  837478766682076373061224174503791,
  837478776682075994881240544003520,
  837478786682079774401156567302535,
  837478796682071329731228751102348,
  837478806682082878381245969902794,
  837478816682072509541398425402656,
  837478826682088692781317382202088,
  837478836682080767861229759003266,
  837478856682076965141282821603099,
  837478866682071563551297447303857,
  837478876682080364071247665303103,
  837478886682071588181273673704730,
  837478906682076742081212712703746,
  837479716682080109661169493002530,
  837479726682087810481239059502108,
  837479736682067971691220154602289,
  837479746682085126681326074302656,
  837479756682070680881270225604041,
  837479776682079364331215505302991,
  837479786682071125871232085302328,
  837479796682075869561201777802864,
  837479826682091018631297837702030,
  837479846682083124951314617002587,
  837479856682075550871259650503628,
  837479876682069014741294708903188,
  837479886682077171621337464305145,
  837479896682077389741337528504999,
  837480656682078314921193667503001,
  837480716682083873771235986902545,
  837480726682073808181319179405297,
  837480736682074583621313658604510,
  837480756682077644521338635004815,
  837480766682068026681258487403116,
  837480796682080415341422187802791,
  837480806682080138221239944302879,
  837480816682073682281327722405205,
  837480826682064448171303564604907,
  837480836682075023951220072702636,
  837480856682082878921231841002866,
  837480866682077028611238149003378,
  837480876682077100971236337503362,
  837480886682074580291256267904028,
  837481656682076785921337563905121,
  837481666682081673251288909802601,
  837481686682070627301236501902296,
  837481696682064586971309306804999,
  837481706682076639481222427303690,
  837481726682080608061133195302375,
  837481736679072633261232213502361,
  837481756682092693681191817402279,
  837481766682070679461324427405117,
  837481786682071556361295842203922,
  837481806682077194091293728402801,
  837481816682087132131290047602066,
  837481826682068848981290951803312,
  837481836682074525791242785104116,
  837481846682069833771360709006209,
  837481866682068490071317985003978,
  837481886682086476001266103602797,
  837481906682079388801316486902919,
  837482656682084221851273777102525,
  837482666682079882951274900303191,
  837482676682075177351203088803575,
  837482716682057910621278256502025,
  837482726682074696821253977603788,
  837482736682081594521345525403825,
  837482746682082357751232103502752,
  837482756682080764041290703502860,
  837482766682075540051239445303001,
  837482796682069469551293597203312,
  837482806682069863491236249102450,
  837482826682072942231290716204461,
  837482836682068657471285914703017,
  837482846682075626561259980403499,
  837482866682076606741223851403394,
  837482876682070657841273030003581,
  837483656682067212061253982403263,
  837483676682071341181223745302358,
  837483686682068925641248661203772,
  837483696682083677371242037803017,
  837483706682070156861303067203310,
  837483726682062627081313863302033,
  837483746682070488811273938703201,
  837483756682072474031376118005271,
  837483766682066654891264980303162,
  837483776682070996791290454303451,
  837483786682075163321306348903871,
  837483796682077051171236802503358,
  837483826682076003811302376503044,
  837483836682077495321243019803100,
  837483856682066434741261990203083,
  837483886682074783651291579703076,
  837484656682067822271295061703355,
  837484666682074531131243722904451,
  837484706682076935961177373802552,
  837484716682075554761221980703831,
  837484736682065470831296315804700,
  837484746682068879721255500503450,
  837484756682067703401318777604129,
  837484766682067021571284465003821,
  837484776682069108231290101003260,
  837484786682076626421330983003742,
  837484796682075849861222200304083,
  837484806682077276431234950003321,
  837484816682067628511367487104087,
  837484836682087928251235067302083,
  837484846682076763691302865602926,
  837484856682076413291224367003765,
  837484866682078521601220747402984,
  837484906682085696401324139002800,
  837485656682076369221338604105101,
  837485666682074821521197771802896,
  837485676682077890551342170904395,
  837485686682068008411248822903420,
  837485726682070762161324975205346,
  837485746682076551661207383704215,
  837485756682075643241220789504435,
  837485766682067117731309613804257,
  837485816682070256871273937403349]

/-- Rows 8601 to 8800. -/
def rows43 : List ℕ := [
  837485826682076510771258943603575,
  837485836682074920211288401002804,
  837485856682075967671331289803450,
  837486666682074908051198736802499,
  837486676682069536351304655603779,
  837486686682072147501347553004550,
  837486706682071186331261328903785,
  837486766682070627541328674605281,
  837486776682080105241238699002945,
  837486786682090286531261294402984,
  837486796682074100131277500503061,
  837486806682089198981199091502876,
  837486816682071106981307132504231,
  837486826682068512271235108303181,
  837486836682071293431303136603739,
  837486866682076530491315393904461,
  837486876682081479471332489503706,
  837486886682086300981322339602453,
  837486896682084456861324957902335,
  837486906682076384031214292904012,
  837487656682068659141245654303509,
  837487666682072540361310137404428,
  837487676682070407671270459603532,
  837487686682068494001252792502984,
  837487696682076589511271504903279,
  837487716682060218081243002102384,
  837487726682075349191246105403330,
  837487736682068500201262464603420,
  837487766682076420231260176803804,
  837487776682076929211212922303949,
  837487786682066447271307466304096,
  837487796682075194131220223402699,
  837487806682077377671340691104650,
  837487816682068784051296951303338,
  837487846682072601621252352603788,
  837487856682071329871396650602471,
  837487866682076616911295764203030,
  837487876682069981681267790903083,
  837487886682067423411274918402981,
  837488656682058709691258434502886,
  837488666679074239891211970102600,
  837488676682073813351406365102410,
  837488716682078340231271471603083,
  837488726682062784461267254603135,
  837488736682086911151403343902052,
  837488746682068552091256115803381,
  837488776682068264911361023705452,
  837488786679072807201229631402361,
  837488836682073127711406291502434,
  837488866682067064891249459403256,
  837488876682068323301259612303155,
  837488888089067323911244560603968,
  837489676682067106591253346103001,
  837489686682078031841183080202636,
  837489698669094620201197187302994,
  837489706682092005931185200602594,
  837489716682092764351177759902237,
  837489726682081222591290293203020,
  837489738669094443091191497203500,
  837489748669093159691162159102236,
  837489756682091074411177802202171,
  837489766682092740651179789102499,
  837489778669093835011193951102348,
  837489798669094635371194126402892,
  837489808669094320181198026202892,
  837489818669094329901197109603194,
  837489828669094706541194821102794,
  837489837189093989691198158802594,
  837489848669094724361192291303194,
  837489858669094683671191931203194,
  837489876682079662761290596802748,
  837489896682078472841218223802935,
  837489906682074733781257403903968,
  837490656682059324521284712502107,
  837490666682079305191213507602879,
  837490676682081218661442111703371,
  837490686679072136441232935502361,
  837490696682069759631276083003270,
  837490706682069382581279763103197,
  837490716682079340811285586902843,
  837490726682079115831249989602981,
  837490776682077386991332529203338,
  837490796682071531791232340402394,
  837490806682080161661245340803070,
  837490816682079437701350495703444,
  837490826682082557221356430803280,
  837490836682082461941351739103280,
  837490846682076758411362566303500,
  837490876682066717001312589304044,
  837490888089069976701220790202397,
  837490906682074978621260617204199,
  837565798069078613821077601102157,
  837565806779094077091064260603227,
  837565826779094443391042313105990,
  837565836779090497971034980802815,
  837566676779099046471060195802111,
  837566716779097136061068116105896,
  837566786779100881801070964902850,
  837566796779094713391058479410361,
  837566816779100879251052103202098,
  837566836779096208351026047202080,
  837566856779093819241030048302048,
  837567676779097940341074804203096,
  837567688069084916851032945202213,
  837567716779100430631044865602004,
  837567766779093529901036160805162,
  837567786779096312961097860502341,
  837567796779091810171012449402008,
  837567826779089076161092248202817,
  837567856779097963391048003302174,
  837567866779099397031043039702031,
  837567906779099326361047120902528,
  837569666779097602411051915202180,
  837569746779097017351061890102412,
  837570766779091592131044295402803,
  837571666779093454891034958305165,
  837571736779094269161052017602900,
  837571796779094748121040433804979,
  837571806779092564561020996002164,
  837571896779094814081059275310390,
  837573666779094426951048606104999,
  837573796779099265521053429102065,
  837573806779090858081023212911765,
  837576656779096709851072676610530,
  837576676779097820461032785602046,
  837576716779089820221052244402573,
  837576776779101232531075030602276,
  837576806779088684601104108902587,
  837576846779085798901100543102277,
  837577656779094723481057175010325,
  837577686779096208751044073606940,
  837577696779094212501053615403028,
  837577708069088644111080551102728,
  837577716779099286101051472402178,
  837577746779101387601077538202160,
  837577766779097976621045669902160,
  837577806779099253341055605202060,
  837577826779098830161041683102036,
  837577856779091245701097645402680,
  837577906779095030131045286708871,
  837578866779092942301047040203464,
  837579676779098309641066410605850,
  837579698069085202671086396802548,
  837579768069085427891086644002699,
  837579846779097014381052830204060,
  837580656779095758611068901110205,
  837580666779102220521080074602090,
  837580676779096180691124997702177,
  837580686779093861511120922402460,
  837580696779094809901042518006416,
  837580736779091854401039084406212,
  837580786779096208511054051102476,
  837580806779092451621033825807687,
  837580816779095497361053432802566,
  837580826779096466131055888202445,
  837580836779091386201027056707951,
  837580866779103362060986405602010,
  837580906779095870451081096902900,
  837581856779095204431051159603531,
  837582716779096180351045767708955,
  837582726779101526011070664802043,
  837583656682083051031081403502699,
  837583746779092572961073600202605,
  837583776779101111951057695402022,
  837583796779095669731070241910155,
  837583806779102578170982793502019,
  837583866779092156651052286402920,
  837584666779098630741072628502194,
  837584688069084563221083336202650,
  837584736779094234341053429903617,
  837584746779095537271066526910940,
  837584776779096446431082318903050,
  837584816779090742111047583402585,
  837584858069081937401032506102007,
  837585658669095517911113185202285,
  837585676779097070131092536402420,
  837585736779095694151033534802204,
  837585766779094083641037639205132,
  837586716779090984541033930003248,
  837586766779095945661055392802566,
  837586806779100425711067489102456,
  837586866779094161881063813703394,
  837589678069081400031063784702479,
  837589806779095310881076078003028,
  837665716679070212901160808112679,
  837665806679075272901115863106639,
  837665836679074286491169051902807,
  837666746582067219901156868803250,
  837667656679070004091164691204615,
  837667666679072590981138088810360,
  837667678069073813241109060714592,
  837667726679073016261148563703000,
  837667788069072410971105503715317,
  837667796679078950661112153702892,
  837667806679073860011179744803621,
  837669846679072198611168207003371,
  837671896679079185041146528702427,
  837674696679072188471191985302974,
  837674796679076968711153308202456,
  837674866679073679741173945803703]

/-- Rows 8801 to 9000. -/
def rows44 : List ℕ := [
  837676746679073465311116934514815,
  837676806679073487261117890215313,
  837677716679076747281159240002463,
  837679826679072048521129242414146,
  837680796679070449921142652814913,
  837680836682071017031221744202439,
  837682656679076723061152970702699,
  837682666679071686181202325002906,
  837682736679078987821138938802459,
  837682816679075520121125399002899,
  837682896679075683951126078402935,
  837683656679076242971145601802472,
  837683666679075066401132576002633,
  837683736679073626161190213403355,
  837683776679075039441143611202525,
  837683856679070983971147016311527,
  837684736679073656921216131402404,
  837684746679068451981152865608084,
  837684826679075188921150740702509,
  837686716679071535091159005108552,
  837686776679068752091165938003306,
  837686826679072368531168557003225,
  837689656679068030171163447904116,
  837767736682086633041226614102479,
  837774808382095452741247965102059,
  837775696682086900631235118002850,
  837778736682084044181229560502010,
  837780656682086647111245457002558,
  837783736682087965861238789602745,
  837784666682086216581238451003112,
  837865656682070903521282804303542,
  837865666682082415111394590804194,
  837865676682082968811299079402699,
  837865686682086671911332161202410,
  837865696682081595851429072304080,
  837865706682070052501319633804211,
  837865716682071326071318055705107,
  837865726682079421021419066002892,
  837865736682080919911340439802968,
  837865746682086577241316614802436,
  837865766682080224031433666002886,
  837865776682069093351351044605601,
  837865786682061929461261204003572,
  837865796682067485421379456502010,
  837865806682074266861366700503732,
  837865826682073830471393113302640,
  837865836682071772701348061204579,
  837865846682085431071421948502128,
  837865856682079098991429130202023,
  837865866682080497201396262103289,
  837865876682070120521323182004461,
  837865886682067363311295361403850,
  837865896682083718241282498702853,
  837865906682077009151403558903394,
  837866656682069410141313967503898,
  837866666682078049731342670404464,
  837866676682084496431347518302509,
  837866686682080541461391722203240,
  837866696682075527991263289503001,
  837866706682079532691398133603703,
  837866716682070501561389525002279,
  837866736682085771451351728202064,
  837866746682081654191435536304133,
  837866756682072864121361807104392,
  837866766682074123191411261102033,
  837866776682068874481376001602886,
  837866786682087121021295083002203,
  837866796682077205301372704703886,
  837866826682077917641349844804447,
  837866836682082478751339419202930,
  837866846682082784041354452402981,
  837866856682075746091381746603673,
  837866866682087474671324759402186,
  837866876682087198601303259402105,
  837866886682078915131368482403345,
  837866896682069961741340222704523,
  837866906682076558921377487303788,
  837867656682069107141346580405182,
  837867666682087473691260568402502,
  837867677170092652821290315602000,
  837867696682068893391341908104556,
  837867706682086702291277403502485,
  837867716682068773801342169704838,
  837867736682088763021328003902174,
  837867746682087453491252911002407,
  837867766682076607081410889602003,
  837867806682088746941339797302082,
  837867816682079477791409648303509,
  837867836682082946951396361204001,
  837867846682070269841378885904067,
  837867856682088178851351296802039,
  837867866682070461601305005503637,
  837867876682087623531355924202148,
  837867886682070516121394153202492,
  837867896682079779001437106902138,
  837867906682069593311370798403877,
  837868656682074633951213372902778,
  837868666682085911781250867402325,
  837868676682081963271300174302669,
  837868686682086307711347259402118,
  837868706682086346751345457402272,
  837868716682084427511355629802784,
  837868726682077841441349722603682,
  837868736682082897151231481402623,
  837868746682077023721359563603759,
  837868766682067470391270212003066,
  837868786682068535351372673002919,
  837868796682073278781329795605066,
  837868806682087739721313989602218,
  837868816682077076841344254204595,
  837868826682084912481371270002373,
  837868846682071761501363487806446,
  837868856682069358611340014704854,
  837868866682069825241351251904608,
  837868876682074444261389811405051,
  837868886682079962671436711402345,
  837868896682070546531344114504493,
  837869656682071273211321345005166,
  837869666682086972681326775702508,
  837869676682073290141408539102130,
  837869686682074335721410397702019,
  837869696682077190341417493902076,
  837869716682075343911221096703066,
  837869726682084830821223722902298,
  837869746682067138371339575107102,
  837869756682073119451337615703201,
  837869766682087332391250907602538,
  837869776682081906341451063502010,
  837869786682084188391358570802689,
  837869796682069600921345169405337,
  837869836682078249441420442102161,
  837869846682066290931288846104621,
  837869856682079477491409652203499,
  837869876682070337391290419203375,
  837869896682076902521400942504666,
  837869906682074037571292835603220,
  837870656682073279971334730303795,
  837870666682075218791209533604395,
  837870676682086139071303162102361,
  837870686682072914631345487703739,
  837870696682068561851340650504871,
  837870706682086191351413807002082,
  837870716682088158321328124602220,
  837870726682067442851246197703857,
  837870736682071605441311375703676,
  837870746682080933701234019202751,
  837870756682073565291365277004484,
  837870766682083948121236965402590,
  837870786682069058001321319703739,
  837870796682069600101345165105337,
  837870806682077818011242063603273,
  837870816682067847061342363105001,
  837870826682081233391410466803034,
  837870836682078129211342586804536,
  837870846682076160191410060202009,
  837870856682069994231310380603808,
  837870866682077334131416015202239,
  837870876682081611951377455003004,
  837870886682083362311280413502656,
  837870906682072589441360586304765,
  837871656682069348961395040302028,
  837871666682080165051346287903473,
  837871676682082803761229504802741,
  837871686682083222591364124202561,
  837871716682080946701356252003066,
  837871726682071297491371596204618,
  837871736682075795061372467803815,
  837871746682084194731338632102771,
  837871756682070946401310287103984,
  837871776682087898181353788302010,
  837871786682081170981435232904533,
  837871796682070957021314149804689,
  837871806682071416061311272304624,
  837871816682085742421312319602446,
  837871826682082215031288622602656,
  837871836682080414171442389802285,
  837871846682078553591374772705501,
  837871856682088585721283623002066,
  837871866682077279971276170903050,
  837871876682086237351318221102754,
  837871886682068674541332617604786,
  837872656682075185681407036802197,
  837872676682082678961312352202682,
  837872686682070923371318645605159,
  837872696682070697011317916204792,
  837872716682077654201303796802794,
  837872746682068905741300814003404,
  837872756682069568201348583205051,
  837872766682072806511343290303969,
  837872796682074166791389197503968,
  837872806682077594101395205603188,
  837872816682073814851400675902984,
  837872826682071516491252844302957,
  837872836682081940121416634603542,
  837872856682085427901325254602699,
  837872876682085675701337681803001,
  837872886682072633181325556604591,
  837873656682088872241323956502177,
  837873666682077502511397252202929,
  837873676682078659641381466204562]

/-- Rows 9001 to 9200. -/
def rows45 : List ℕ := [
  837873696682075986111374993104854,
  837873706682084280321235641802443,
  837873716682083657871407017202699,
  837873736682083185591234475502699,
  837873756682072150291371467405196,
  837873766682086100721311144802243,
  837873786682088197271265113002279,
  837873796682078887121414775602499,
  837873806682074755821397162902915,
  837873826682084254861363972602712,
  837873836682084798651364031102459,
  837873846682077835561367745403398,
  837873856682075829921403110602492,
  837873866682071354931301139503424,
  837873886682076440831208991603617,
  837873896682081503401423296803329,
  837873906682077118141198745903772,
  837874656682084362361440384102489,
  837874666682078839281394419703640,
  837874676682084037241326034202495,
  837874686682077801361410865002768,
  837874696682075202531339926005028,
  837874706682077355001364741803453,
  837874716682075418211292935003079,
  837874726682078546041399526303391,
  837874736682072807811353507904077,
  837874746682069281681246173202837,
  837874756682076125151399232102646,
  837874766682068153931368101304300,
  837874776682069735041378163604723,
  837874786682074523221356098103575,
  837874796682082910591451546002016,
  837874806682072208001338760604990,
  837874816682073557801389574902853,
  837874826682068910781357691105117,
  837874836682083462841432650002837,
  837874846682074347351365935303811,
  837874866682073998191362537304077,
  837874876682069954811325780903909,
  837874906682082928951270634702804,
  837875666682082820901440061803926,
  837875676682075879561355465204018,
  837875686682070982941365630604196,
  837875696682080686631296698102597,
  837875706682069257071362013505478,
  837875726682081886671228796802981,
  837875736682069161421388108202335,
  837875746682081660561285447302814,
  837875756682083562751429176402600,
  837875766682084033251357615902394,
  837875786682083719211434529403145,
  837875796682078002231373603904667,
  837875806682072312501374619005117,
  837875816682087604461321550102200,
  837875826682079548251348590403552,
  837875836682079047791355296803476,
  837875846682083150161234102503092,
  837875856682080099851408632203247,
  837875866682091041331294815502049,
  837875876682068076631293627103398,
  837875886682088031091313696302114,
  837875896682086334161311617402298,
  837875906682066797111261414002912,
  837876656682083432551302687102900,
  837876666682076346001381631203506,
  837876676682082031821299793603969,
  837876686682084301261235043902472,
  837876706682070187821312581503959,
  837876716682070596741362500104621,
  837876726682069863241383885504051,
  837876736682070849061345023104178,
  837876746682080482271187455705428,
  837876756682080288551189522705297,
  837876776682074386111210969303001,
  837876786682070639851399268102131,
  837876796682067904161349520404871,
  837876816682075934381295768703001,
  837876846682081863481380458603178,
  837876856682079155591427966202167,
  837876876682073126051290338404697,
  837876886682085198721316026703050,
  837876896682069934631344430004159,
  837876906682080568841304043802669,
  837877656682088003741259195702325,
  837877666682084260001403769202745,
  837877676682076975911373217304133,
  837877686682083181621231529802471,
  837877696682077510701419728002233,
  837877706682068646191337476504841,
  837877726682074155771310150904575,
  837877736682080172231401127103473,
  837877746682076562591395623105281,
  837877756682074906731360138703519,
  837877766682080455341441660002387,
  837877776682071401671346462003985,
  837877786682072768371374131404461,
  837877796682084915721416121802509,
  837877806682072679861334583003752,
  837877826682075883211410124202066,
  837877836682068826491330353904933,
  837877856682071945421401330202276,
  837877866682071645491262497903250,
  837877876682075606921356287503798,
  837877886682071275351401608902098,
  837877906682088255791277519402053,
  837878666682072822931336975603772,
  837878676682087176811321035102236,
  837878686682071067751305242103815,
  837878696682068458181369759203322,
  837878706682084962341372945502607,
  837878716682072474011376117905271,
  837878726682075703821361971803483,
  837878736682077432621419765602049,
  837878746682075777061331596403529,
  837878756682075232311365791803512,
  837878776682064436861285001305602,
  837878796682075939851201326903001,
  837878806682081938471278313702981,
  837878816682066956671252529403640,
  837878836682075053671363137003644,
  837878846682070803561322644705261,
  837878856682072176051396643502591,
  837878866682073431961258264303099,
  837878886682077170551186491102866,
  837878896682076718571196653003001,
  837878906682067872371228964002745,
  837879656682085859091358801602154,
  837879666682086320461396581002210,
  837879676682078468601388169405609,
  837879686682078577911426748402020,
  837879696682082981021378276202817,
  837879706682067699061336035704815,
  837879716682084342021445796702171,
  837879736682079577531218375202951,
  837879746682079574981236106602984,
  837879756682087672021323446802126,
  837879766682080022421237907903001,
  837879776682074999141197782403001,
  837879796682084973081424789602262,
  837879806682079733451431609402164,
  837879816682066404791248549003263,
  837879836682069271731333320504697,
  837879846682075987001201079302951,
  837879856682081854181096506402394,
  837879866682079879501437059202279,
  837879876682068017921290224403378,
  837879886682088292671241611902262,
  837879896682082127511399039403529,
  837879906682087476431358749802154,
  837880656682070158281353934704598,
  837880666682083333241359105602197,
  837880676682082940671384710403050,
  837880686682071324471335012604793,
  837880696682079737081434423802197,
  837880706682084403761366805102689,
  837880716682089130841285959002197,
  837880726682074609991358491703576,
  837880736682077005101382226206118,
  837880746682071085981330145305229,
  837880766682068748421282695403181,
  837880776682077543461384049204395,
  837880786682068969851290688703378,
  837880796682070800341349725004313,
  837880806682076565791410749202066,
  837880816682081624901433577704067,
  837880836682074739971332323105277,
  837880846682069346841354999905143,
  837880856682068437431342439704838,
  837880866682059310051294418802052,
  837880876682081173751299954702591,
  837880886682072681611351329003808,
  837880896682069045441330130805110,
  837880906682073932121388284804625,
  837881656682087355901321384202138,
  837881666682086830941319246202256,
  837881686682083217561417619702745,
  837881696682083927751301605902682,
  837881716682083160061369177302689,
  837881736682075886471226567204756,
  837881746682072476801245956902499,
  837881766682074268021226521802482,
  837881776682079007841403788603050,
  837881786682076843781274305903102,
  837881796682069623361234557202558,
  837881806682069428451297696603437,
  837881826682073268701227657402003,
  837881836682067694321259652603001,
  837881846682066206451265168503542,
  837881856682076964761385508805510,
  837881866682071248721355376104205,
  837881876682082436641222534402453,
  837881886682085022551410071902653,
  837881908089067153351244297903837,
  837882656682072682011351328503808,
  837882666682085681291238899002102,
  837882686682072703081407231402066,
  837882696682077316071361227403575,
  837882726682068962671341222004625,
  837882746682086328791371624202325,
  837882776682080420471378780803381]

/-- Rows 9201 to 9400. -/
def rows46 : List ℕ := [
  837882786682083210441448943302420,
  837882806682070791221337563805757,
  837882816682083896101226164902331,
  837882826682085843771298355502604,
  837882836682085049981419877502115,
  837882846682070671871310541404162,
  837882856682081719671439786503891,
  837882866682083114451305337902450,
  837882876682080091711313621503033,
  837882886682082650661333607503309,
  837882906682069280251351339505222,
  837883656682072391291332914904454,
  837883666682087292761351530002230,
  837883676682070101641325769605287,
  837883686682077078511342804204664,
  837883696682080262301381555203306,
  837883706682068635571228850603050,
  837883716682081957841408636203539,
  837883726682087416551252613402440,
  837883736682071797901375328003575,
  837883746682076467691214240603723,
  837883756682067730391343577104851,
  837883766682090337681261831303680,
  837883776682089302841326610202088,
  837883786682080967941373129403247,
  837883796682071387381365762404428,
  837883826682072444121330196904165,
  837883836682073798031376757904504,
  837883846682077907461383567504753,
  837883856682083118871308328802495,
  837883866682066333461259230102591,
  837883876682089297141314761402043,
  837883886682069640271287457403148,
  837883896682069052331235012103247,
  837883906682068648641243782803401,
  837884656682068130561298783503444,
  837884666682082274581423767003844,
  837884676682084842771372778202066,
  837884686682073412381334928803862,
  837884706682072475561403246402344,
  837884716682081384841390007303703,
  837884736682088131901244788402328,
  837884746682085711191239117102098,
  837884756682071284881325119304904,
  837884766682085141441396198603116,
  837884776682072761711372670904894,
  837884796682072107891384807803572,
  837884806682087476731312425502066,
  837884816682079275561363379603690,
  837884826682078260861394251203896,
  837884836682082962581427413102820,
  837884846682071239291348858404009,
  837884856682088232101345469202033,
  837884866682074347751383392104559,
  837884876682080103431437357902443,
  837884886682088699971350926702026,
  837884896682076620171353775604159,
  837885656682064613021255887102820,
  837885666682068882531371144703115,
  837885676682084405021430326602394,
  837885686682086582961365937602197,
  837885706682070471061321475405264,
  837885716682075044841203735202787,
  837885726682069557821340037804441,
  837885736682073144251379502903181,
  837885746682081217851401230003253,
  837885756682072961161345108003690,
  837885766682068543241266448603214,
  837885776682082513691427041704133,
  837885786682073648371330688703998,
  837885806682080198301437740102404,
  837885836682070056251322211804100,
  837885846682077889471389213403988,
  837885856682080168311405012103335,
  837885866682067782501272553902951,
  837885876682081946011427073503968,
  837885886682068595521266882303142,
  837885896682074365451335690903870,
  837885906682079910101438100002210,
  837886656682082007051293692603037,
  837886666682076695621410055602021,
  837886676682069258821371558004162,
  837886686682076598691357776103847,
  837886716682069965271317604303831,
  837886726679073835351218606202492,
  837886736682068203241347296505232,
  837886746682074749631212037603444,
  837886756682069494471276285103214,
  837886766682073221541376099604474,
  837886776682069333231272283303112,
  837886786682068694831292444203352,
  837886796682070025591290287303240,
  837886806682083017661308005802541,
  837886816682083480831317318802600,
  837886826682076971721413293202012,
  837886836682088358761295509302098,
  837886856682069567911331366904395,
  837886866682078588651405520803322,
  837886876682076006101199248902574,
  837886896682066026941246320003299,
  837886906682072350421352904303716,
  837887656682080020011437643602322,
  837887666682069063751290422503099,
  837887676682087105391391393002016,
  837887686682066572671253886503335,
  837887696682069718821227663602507,
  837887706682067558621247650603476,
  837887716682066409441259419703476,
  837887726682067036831264540803050,
  837887736682075934941199898902594,
  837887746682074795681213735703345,
  837887756682073328071257308802722,
  837887766682071169011282050703788,
  837887776682069612751288035403181,
  837887786682073330761256103602942,
  837887796682066981031253713303001,
  837887806682080685411439405002262,
  837887816682084841811372956802066,
  837887826682087367741281706802201,
  837887836682084786441392894303034,
  837887858089066987671244885503575,
  837887906682080515951440380602302,
  837888656682068326621341562604966,
  837888666682068080391350251304838,
  837888686682083723811242119702764,
  837888696682090989481288768502240,
  837888706679072109471230005102394,
  837888716682083228841306330202745,
  837888726682085484101359721102190,
  837888736682069369261289126503289,
  837888756682083457661272307102558,
  837888766682077376681278448103201,
  837888776682083577581263846302886,
  837888786682082626901340063003021,
  837888796682082104411236106402600,
  837888816682079168261373106703384,
  837888826682082603101234773702771,
  837888836682085134241366445602344,
  837888866682080916361188106702348,
  837888876682089797101300283302020,
  837888886682084623251444650302302,
  837888896682087295071294686402098,
  837889656682088503861274189202584,
  837889666682070994951305119803985,
  837889676682082988861230936902552,
  837889686682079931151375448003312,
  837889696682087519551348875202125,
  837889706682081490151338695403854,
  837889726682071927711383322702899,
  837889736682073379361326976905113,
  837889746682083864141225943302810,
  837889766682071570081339446905300,
  837889776682073630181348743003594,
  837889786682070452431311610104300,
  837889796682071085721330146805229,
  837889806682088682971316968602069,
  837889816682084680001233329002459,
  837889826682084053921234413302518,
  837889836682071773161340090505199,
  837889846682076163991386965003804,
  837889856682070289781297800503558,
  837889866682087878781313500402102,
  837889876682087887411353471302245,
  837889886682085906811417513902249,
  837889906682085159301418534602115,
  837890656682067705111340814304904,
  837890666682068718821234874103070,
  837890676682066670931254949803220,
  837890686682076798101313951503424,
  837890696682086829191278053902369,
  837890706682089726821314218802066,
  837890716682066136341317551104034,
  837890726682080985801338505004835,
  837890756682074976701359537703518,
  837890766682068425381306964103401,
  837890796682084704771444601502131,
  837890806682075478291396499104772,
  837890816682082768691237670803968,
  837890826682072757001331097604359,
  837890846682086490091316646502499,
  837890856682087144431317633002243,
  837890866682086272251325213202361,
  837890876682076266221408547302013,
  837890896682068002721294011203450,
  837890906682080033301437976202331,
  837967657170094813781276264602026,
  837979717170093892441281942502046,
  837979776682084514221259637202013,
  837979836682086378141267985102653,
  838065668069084748201005570208312,
  838065678069085386741020568002548,
  838065778069073370921073147402210,
  838065808069083095251036159302948,
  838065828069078315801106614602797,
  838065838069087208371035252902728,
  838065898069079266151062286402751,
  838066668069083988641030139804749,
  838066678069086086791094845602328,
  838066768069082915021034273802981,
  838066828069078592021105062802750]

/-- Rows 9401 to 9600. -/
def rows47 : List ℕ := [
  838067768069081610161054213502513,
  838067808069083162091036649702978,
  838068798069072961971080129002010,
  838068828069086196041049526202427,
  838069698069087548841073248502421,
  838069788069079817131048445202899,
  838069798069080842311014751002069,
  838069806682080229291092857402725,
  838069818069072817741090614806480,
  838071668069085974821022401002597,
  838071778069080719721039952804008,
  838071806779089876821047479302680,
  838072738069083201321001704702097,
  838072798069076833471057906410917,
  838072898069076283791066434113300,
  838072908069080665511023972811097,
  838073768069076729161093098104047,
  838073778069077992371028786502113,
  838073808069078713671053626804100,
  838073828069076989541087279904221,
  838073898069075204851085679314972,
  838073908069081528731036492003965,
  838074658069083940411028379304707,
  838074668069082396881019469710727,
  838074698069084417911012228804477,
  838074738069082823021032661003148,
  838074748069078224661045164113034,
  838074768069074539991098236714552,
  838074788069074658371048459102141,
  838074828069082871231015063210781,
  838076788069083610291024910807085,
  838076798069072309721086452802072,
  838076808069077828791029975902250,
  838076838069081587161048621602712,
  838077698069086456240996116402115,
  838077708069078681571054605104247,
  838077838069084106851038736602587,
  838078678069080116861037846108070,
  838078808069074205171099409615120,
  838078848069086416631052409902650,
  838078858069077709931091128003010,
  838079768069078067331029367002410,
  838079788069083107831048468702354,
  838079868069078095901108327502748,
  838080658069078871201056468903217,
  838080668069080454711072452002659,
  838080718069079327881021673202016,
  838080898069083804161021372910333,
  838081788069084938341061313002394,
  838081848069086209051066817902306,
  838081858069073660161084152810405,
  838082676765144222200496712602000,
  838082708069075738791095222916422,
  838082778069078867171046485604600,
  838082858069081905511008872502106,
  838083798069076244381037711202039,
  838083848069083502831036246702869,
  838084698069077469561061954404500,
  838084738069080621441050334902584,
  838084788069071936071097202403538,
  838084828069081089751052648302650,
  838084858069077371081107712202659,
  838085828069084783210993811402120,
  838086738069079163311037531315458,
  838086768069074239851066306207676,
  838089768069085434320987439302282,
  838089798069082599621004315602095,
  838089858069074383671054581902489,
  838090658069075143941050339403860,
  838090798069076465861080456112860,
  838365666682066233291297336303968,
  838365676682077403881242981403230,
  838365686682071236831270742104736,
  838365696682057773001269289202161,
  838365708089064633351255254302840,
  838365716682070282751272701803410,
  838365746682067722031266848403109,
  838365756682061338771263878103542,
  838365766682060206311242325602361,
  838365778089066861651247913703542,
  838365786682066970801297680503608,
  838365806682066389861286086904641,
  838365816682061753221274795003968,
  838365826682068499861260310403214,
  838365846682077928071271745703099,
  838365856682059253901285680602014,
  838365866682068313611225247202400,
  838365876682069198241259208903493,
  838365896682069506561255147103946,
  838366656682070968261263246104017,
  838366666682069331701233694003207,
  838366676682069274061284056203115,
  838366686682060600511270085903444,
  838366696682070405151259745603848,
  838366706682069992611286096403400,
  838366716682060853741284589604209,
  838366726682072435721247106302453,
  838366746682061392091295466805514,
  838366756682072412201253597803886,
  838366766682063175811309080902060,
  838366776682069699391245744902650,
  838366786682059809991288126002020,
  838366796682061277581251060902787,
  838366816682068257181275174603230,
  838366826682066932071295733903319,
  838366836682068746321277103803155,
  838366846682067681211269044903033,
  838366856682068547841228578103191,
  838366866682067912781234593802770,
  838366876682069085791249840203083,
  838366886682071559741251967502696,
  838366896682069906611232044802443,
  838366906682060320401290170602056,
  838367656682071257891273750004657,
  838367666682076224851300491802978,
  838367686682071154351275084304644,
  838367696682058669371258654302722,
  838367706682064568671304656105140,
  838367726682068401221267699303053,
  838367736682071512751252838302957,
  838367746682068454781253387103070,
  838367756682062823641279414704461,
  838367766682070855171283107503568,
  838367776682068372551251882803312,
  838367786682060626001291631404723,
  838367796682058222201275475802033,
  838367806682066843291293923303854,
  838367816682060094821250701702285,
  838367826682065481071259442703411,
  838367836682069384851252758003968,
  838367846682066303631273554903837,
  838367856682081128831295179203007,
  838367866682059864911294880402014,
  838367876682071956081239925702443,
  838367886682061887071276807104133,
  838368656682076322161244676003558,
  838368666682067962431262654303280,
  838368676582063704931263695204723,
  838368696682068017241257598403083,
  838368706682069897471226530302312,
  838368716682080648951344356003962,
  838368726682069798281229340102541,
  838368736682084344711362917502584,
  838368746682070947211259331803252,
  838368756682067407791263075203099,
  838368766682081995781346579603588,
  838368776682059177061244202903073,
  838368786682080896161345792803932,
  838368806682059002291253289002443,
  838368816682069814291233628002446,
  838368836682076297911293503902935,
  838368846682082057951298193502794,
  838368856682072004231257746603309,
  838368866682071788831245340002508,
  838368876682077082061244788503197,
  838368886682059002621282982202033,
  838368896682073841951269860603411,
  838368906682066869481253644903312,
  838369656682067779491252570303470,
  838369666682076228411332245003440,
  838369686682072040641255783303132,
  838369696682060544651280638502105,
  838369706682068670361327689206632,
  838369716682058056601275169702033,
  838369726682072044361267484904946,
  838369736682069666001232995202489,
  838369756682069979461267449603299,
  838369766682069827501270644103601,
  838369796682069269301264205103299,
  838369806682059821211264161602502,
  838369816682068080641260588203099,
  838369826682062341391277263904498,
  838369836682059438701274157903460,
  838369846682068304671326811004451,
  838369856682082712901234172702915,
  838369866679071911161228663102289,
  838369876682066856931316873505084,
  838369886682070028851236868502361,
  838369896682060564181236947102197,
  838369906682061260441271406903198,
  838370656682064016481283522605645,
  838370666682063937771269307904100,
  838370676682071716831287630903969,
  838370686682066993791252982603224,
  838370698089064534741254012302558,
  838370706682068817781257067203204,
  838370716682067337461278656002925,
  838370726682070214721321886204438,
  838370736682067805261244153003837,
  838370746682069188491253793703435,
  838370756682070090201222185902259,
  838370766682082899751393662603466,
  838370776682066459381299005003526,
  838370786682067377441250726303706,
  838370796682069956741236787902354,
  838370806682069139011278217603145,
  838370816682068684451252616803608,
  838370826682069716341308039503598,
  838370858089066155951251827903739,
  838370866682069795761262165903509]

/-- Rows 9601 to 9800. -/
def rows48 : List ℕ := [
  838370876682071324451256032103063,
  838370886682066544271294204904239,
  838371656682060734641284638604231,
  838371666682064113921313879002049,
  838371676682069541221242427202566,
  838371696682069489491281576403180,
  838371706682069795071267742303575,
  838371718089068969071225024602381,
  838371726682069925911239266602410,
  838371736682059940081285578402033,
  838371746682072750631237195102331,
  838371756682068539911245401403699,
  838371766765141451200538591109349,
  838371776682068305681234337603151,
  838371786682066765271254576403401,
  838371796682070574131254087004211,
  838371806682074145501321904005281,
  838371816682068232841256769402709,
  838371826682061106921281392903555,
  838371836682074597301258168203975,
  838371846682068303521251825403050,
  838371856682066803821266689802886,
  838371866682062137511278083704149,
  838371876682065776061269525603608,
  838371886682070427661237548302312,
  838371898089065915941258028402889,
  838371906682067100741261303503050,
  838372656682069515131242266002620,
  838372666682066676771265279803007,
  838372676682066571141298293403447,
  838372686682067998121250953203368,
  838372706679071970011225157802328,
  838372716682067643281242305204281,
  838372736682066734881259608203237,
  838372746682067735791245089003686,
  838372756682067405711244260203968,
  838372766682066423851275879303213,
  838372786682066754351281195903637,
  838372796682071341591351458404208,
  838372816682069438651251310403280,
  838372846682079872191232782202853,
  838372856682070542771239514902426,
  838372876682066586931259862203056,
  838372886682066080481246965103368,
  838372906682062365361256576103063,
  838373656682081574321346640803739,
  838373666682070521441271839803574,
  838373676682067690001251758903405,
  838373686682067724701266109003135,
  838373696682069396151253925903729,
  838373706682066444521259624502970,
  838373716682069732981242686202617,
  838373726682069051401272735403296,
  838373736682067980111236750703001,
  838373746682061636901261514203197,
  838373776682059747211241585502764,
  838373796682058502111263072902741,
  838373806682068805391229579402919,
  838373816682060831561234574102230,
  838373826682061394831269173703344,
  838373836682065460241300749305501,
  838373846682064501391293444404930,
  838373856682059866661276316102032,
  838373866682067697871261654903194,
  838373876682070020271235640902344,
  838373886682067344351264926902984,
  838373896682068467061302566103411,
  838374656682062832041284417104546,
  838374666682071139781256516703253,
  838374676682060014441286970102026,
  838374696682066853161300509503749,
  838374718089068780451223182802351,
  838374726682067831851264223402787,
  838374736682068511161238464803053,
  838374746682068189451268691503377,
  838374756682060847971262508703631,
  838374766682070648791262277903706,
  838374776682071144101274966004621,
  838374796682070620641225469402511,
  838374806682067103601280674203428,
  838374816682077188431281181703266,
  838374826682057457511266098602066,
  838374846682069155241267912103082,
  838374856682070616281276873103200,
  838374866679072054531235197702150,
  838374876682068219481261047803017,
  838374886682070525381229834302150,
  838374896682072289591237820402150,
  838374906682065944521259937303000,
  838375656682071091771236405402328,
  838375666682070528031236202702312,
  838375676682070708551279365203758,
  838375686682070253651245295502410,
  838375696682066875501269234202984,
  838375706682066666931261289903180,
  838375716682069491441254704104028,
  838375728089067086691244576003853,
  838375736682066659571294125403673,
  838375746682065696931285859703575,
  838375756682060234781299598602033,
  838375768089066589491247723903542,
  838375776682065984371276430003854,
  838375786682062331681261858703460,
  838375796682069525481241628902544,
  838375806682065687621261575303050,
  838375816682075454441295372403000,
  838375826682072827391291728304306,
  838375836682059999591270541802253,
  838375846682062384261313263802020,
  838375856682062717311293835805130,
  838375866682067600541245127003738,
  838375876682078514371188192002807,
  838375886682070132441293426903250,
  838375896682075530301216408204362,
  838375906682061678591271751803854,
  838376656682061617121312542202020,
  838376666682070973181240717502394,
  838376676682067322601247630103755,
  838376686682071352511232402602328,
  838376696682077574161243111303224,
  838376706682067452851265709702885,
  838376716682061620001249579402653,
  838376726682084661821222354202397,
  838376738589059169021243714003096,
  838376746682075730341329733703434,
  838376756682071779401248392802394,
  838376766682067759761240667603788,
  838376786682062837061304529903096,
  838376796682067079031268476003542,
  838376806682068084701223536302299,
  838376816682067219121249230903362,
  838376826682070892071224063902413,
  838376836682064481511274377804087,
  838376846682060190941241019302459,
  838376856682068479621233869702754,
  838376876682068023991232027102853,
  838376886682067290481253913403296,
  838376906682067475851263357903296,
  838377676682067915621264774603209,
  838377686682064691531259241803473,
  838377696682069014931244338202804,
  838377706682063837091301669404687,
  838377726682058073021275347302066,
  838377738089067913101236964103148,
  838377746682068361621248553403283,
  838377756682059926391285894002020,
  838377766682066401721253503903083,
  838377786682081118811226683003640,
  838377806682066324761279880103391,
  838377826682065476121283501804822,
  838377838089067136941245035203522,
  838377846682058892221290861102059,
  838377866682067960351324375804434,
  838377876682065682111329865802049,
  838377886682068875771335738705868,
  838377896682064603901257325402951,
  838377906682076087341200136103070,
  838378656682070095501235569102436,
  838378666682066964531258137503329,
  838378676682071283911281271903877,
  838378686682078829071271767803119,
  838378696682072870121236069802371,
  838378706682069672941311884703739,
  838378716682060282641285065602125,
  838378726682060298801289176802066,
  838378736682067010261261219703247,
  838378746682060882661267769703063,
  838378756682073152571259231304362,
  838378766682075681741242277203818,
  838378776682080038481251136402968,
  838378786682072802351342181503749,
  838378796682062628361272655503968,
  838378806682061199751283912204264,
  838378816682068820821241684202981,
  838378826682071686201250630102754,
  838378846682066710591249419803289,
  838378856682067759161319706204582,
  838378866682070764521229696302285,
  838378876682077699941344790804408,
  838378896679072811421217809602541,
  838379676682070964961230463502305,
  838379686682069754881235809102374,
  838379696582063223951264945704180,
  838379706682074807621364684203575,
  838379716682066651151285043304599,
  838379736682067696381312238203788,
  838379746682070019481282609203476,
  838379756682066785191288096103932,
  838379766682068753541350325505146,
  838379788089066212511249674003476,
  838379796682067660811304545303903,
  838379806682069950861285241003539,
  838379816682070421001238433702502,
  838379826682060184141242838202354,
  838379836682060097191297442902039,
  838379846682073645631346523903946,
  838379856682072964851337343803772,
  838379866682073849701341730403837,
  838379876682083155851234115502973,
  838379896682077707831229772502971]

/-- Rows 9801 to 10000. -/
def rows49 : List ℕ := [
  838380666682063778251272991704697,
  838380676682076265171286543602866,
  838380686682075231101199615602922,
  838380696682075562361243864202837,
  838380706682065225721258798603420,
  838380716682064455551314634102016,
  838380736682066912151275045503526,
  838380746682064153001279817105438,
  838380756682067232411286311203424,
  838380766682062095001266667504083,
  838380776682068296131221182602260,
  838380786682070352251287954403446,
  838380796682067987701252088803165,
  838380806682058340151277879702039,
  838380816682080558381095158102751,
  838380826682081732261072536802794,
  838380836682063523371280228105609,
  838380846682065651511261696503220,
  838380866682081044651072174402751,
  838380886682081146871107327402531,
  838380896679072326261222472802390,
  838380906682067278031319469603749,
  838381656682076281521196816902830,
  838381668069080812881080496903197,
  838381676682066325901301788004313,
  838381706682066187271252952603623,
  838381736682077490371243114303250,
  838381766682075884571298742905609,
  838381776682076453891375139904464,
  838381786682078230541395769103788,
  838381796682069916391261086503590,
  838381806682079525481407100403362,
  838381826682068608531263956303286,
  838381836682074963441276757303001,
  838381846682065187141300358905314,
  838381856682069934991242954702410,
  838381906682077892471340990204408,
  838382656682068286961269017703384,
  838382666682068155561254705803024,
  838382676682068292701256298003084,
  838382688089066605881247507503443,
  838382696682064194751264830803693,
  838382706682077236001405475302869,
  838382716682067223601250199303319,
  838382726682069217961240161802577,
  838382736682069244871239664702551,
  838382746682068121321261859503181,
  838382756682080486221369980503519,
  838382766682067967331258077603001,
  838382776682068983391237210402791,
  838382786682063680171304739205025,
  838382796682067105621258828703217,
  838382816682059079211255284002709,
  838382836682062805431301689703476,
  838382846682088458231248165402289,
  838382856682058612211279655302026,
  838382876682066798181318918603781,
  838382886682077221941288820502591,
  838382896682060026951276357902230,
  838382906682059722411250684702348,
  838383656682067968881238070503047,
  838383666682061341481239590502246,
  838383676682060313801275820202646,
  838383686682061142131274560804162,
  838383706682069898891275509903476,
  838383716682059651041257292702469,
  838383726682070798941229861802275,
  838383756682085493711360771902226,
  838383796682068590541279648702984,
  838383806682069959191236843002328,
  838383816682061745361300820906462,
  838383826682069682881272643903476,
  838383836682063781981314345002049,
  838383846682060790631251555803460,
  838383876682070280881280465003575,
  838383886682071064141229821602300,
  838383896682067479721264859602781,
  838383906682066937521289805203178,
  838384656682059703291251953702709,
  838384666682063858441296867804559,
  838384686682061448941284018004311,
  838384706679072124801228697702328,
  838384716682071528571229430202530,
  838384726682064477961303129305346,
  838384736682073543371408318702279,
  838384746682062652451301745003322,
  838384756682066318831254567202794,
  838384766682069243091283119103050,
  838384786682068319971317841604283,
  838384796682062488681260955303503,
  838384806682072033471296759003591,
  838384816682090881891281196602459,
  838384836682067391951265492302813,
  838384856682071271841258906403250,
  838384886682073804691369216504920,
  838384896682064443851268199503640,
  838385656682072372781252280603575,
  838385676682068510571267921203194,
  838385736682082898101312418202984,
  838385766682064519901308457605215,
  838385776682066195461266837303558,
  838385816682069241961249504402915,
  838385826682068417731271245803264,
  838385836682073419891251375003968,
  838385846682075557911216971902705,
  838385856682079258321305158802761,
  838385866682063770821289295904467,
  838385876682067223511284921403470,
  838385886682069514901316248103597,
  838385896682069354561285188003115,
  838385906682069337371291520603322,
  838386656682070939451223694902805,
  838386666682066934901261793803086,
  838386676682061493341290774205212,
  838386686682065701851267485003312,
  838386698089066183211249411703250,
  838386706682067042961308489104557,
  838386716682067718771243459404016,
  838386726682067638371248707403398,
  838386736682062999391288507404756,
  838386746682068132441242477804280,
  838386756682067201101258419603299,
  838386766682067474341253226303476,
  838386776682067993611250231903499,
  838386786682061064911284260504133,
  838386796682069131431298694703437,
  838386806682056498401266510202082,
  838386816682067585211250110503510,
  838386856682072298841356441505773,
  838386866682068709541238803103050,
  838386876682075486661204390702975,
  838386886682071492731235703502394,
  838386896682069064121318233503575,
  838387656682060381861277823002223,
  838387666682073985471324382005442,
  838387676682071070431269294404608,
  838387686682062809681267589503145,
  838387696682068251631290515903450,
  838387706682062654321265944803857,
  838387726682068084181321757704300,
  838387756682066965361295036203148,
  838387766682088714501317825102115,
  838387776682066499231286944604461,
  838387786679073768641224056702820,
  838387796682067030631259228503083,
  838387806682081262721297881402797,
  838387816682077471921243705203283,
  838387826682068117001257022203113,
  838387836682059448811265350203309,
  838387846682060998831299191405527,
  838387866682066410961299550203772,
  838387876682071323581241047102262,
  838387886682070972631237067802262,
  838387906682071486831337262005458,
  838388656682066961501290621303526,
  838388666682072841961234270002551,
  838388676682072946231239149902571,
  838388686682062022341271317204031,
  838388726682076297951237053703099,
  838388736682078814851232075003201,
  838388756682077121811232587303001,
  838388766682069561301236631102554,
  838388776682067212101261130203443,
  838388786682081698631248813202820,
  838388796682066712181278660603932,
  838388806682086377061312416602523,
  838388816682070670771280218703466,
  838388826682087046191288495702974,
  838388856682086840831314561902276,
  838388866682067045481258874703201,
  838388876682071193111273955404625,
  838388886682063127841276259604986,
  838388896682080379241193282902459,
  838388906682070248451298707903348,
  838389656682065890741302074104641,
  838389666682061718691312999102033,
  838389676682070951361270323903959,
  838389686682082451921307870402643,
  838389696682074681801214976403033,
  838389706682071123161312775804762,
  838389766682066664211254296103142,
  838389776682069909221233832802548,
  838389786682069917201233292002427,
  838389796682074740361243838403155,
  838389806682085476181360795502190,
  838389816682061618521271187603752,
  838389826682069650681276718903214,
  838389836682070094601274624803552,
  838389846682062861601263130603247,
  838389856682070175641274113303621,
  838389866682070277981271472203650,
  838389876682071730311252129703460,
  838389896682071047451268460303923,
  838389908089067144861245981904080,
  838390656679072276561232441202331,
  838390666679071792121231880002331,
  838390676682071985531249976002590,
  838390706682071520861239755302150,
  838390716682070738521271018703575,
  838390726682066348361252827602928]

/-- Rows 10001 to 10200. -/
def rows50 : List ℕ := [
  838390746682071816331254914402899,
  838390756682067789281226926102410,
  838390766682068542061278282102994,
  838390776679072167291224456402377,
  838390786682064816861290748504451,
  838390796682081343381295402302804,
  838390806682067307871257830103499,
  838390816682067966561237276903197,
  838390826682062090691254742502984,
  838390836682067167961283910403588,
  838390846682067200631306569204146,
  838390856682070503561269549103099,
  838390866682077936541284626103066,
  838390876682064807921298500804588,
  838390886682070479001290262903447,
  838390896682070332801290468403414,
  838390906682072289491255871804024,
  838565658589055216641237349002174,
  838568858589056630611234953802305,
  838576798589056040701217100802033,
  838576838589055140161248876602095,
  838577698589056754881219248202069,
  838577858589055155961239600102105,
  838580698589055089291250793002000,
  838580858589057629921219367002177,
  838583796582058555951220094602187,
  838584828589056799201256446002338,
  838586798589058235601253787102489,
  838665678669099555581107544402741,
  838665748669098819711141072702394,
  838665788669099430271155235502721,
  838665836779096573001131785002266,
  838665848669094057701122955102298,
  838665888669099995731074169202394,
  838666678669100121821152994702026,
  838666738669098620161097781602666,
  838666758669099261331097661307085,
  838666768669100181331124285003450,
  838666778669100040311106281904042,
  838666818669100008011089162602043,
  838666838669100252981123385003338,
  838667668669098117631164562202197,
  838667688669097627441138284102141,
  838667698669099351741147149302203,
  838667718669098756621074586402098,
  838667748669099654811114196602512,
  838667768669098923921125763002328,
  838667788669096222301171466403450,
  838667798669100176371099280703437,
  838667808669100668921167363302033,
  838667828669101413071103090802052,
  838667838669100287241131746904145,
  838667858669100443841158569802025,
  838667908669099369341130636602525,
  838668808669094727581190286804579,
  838668878669097490741167228702879,
  838669668669098676231076606902079,
  838669688669096715201183552702318,
  838669788669099033941077478002066,
  838669808669100195261125505703555,
  838669848669097350461174621502794,
  838669908669097058461104980602295,
  838670778669100486921131477204739,
  838671678669099772301075106202138,
  838671688669097205841092357502426,
  838671738669100566411176823502042,
  838671846682082578091180626602948,
  838671858669099021221102390602606,
  838672688669099898611074458302207,
  838672718669100460581139021302010,
  838672728669100810001103562304460,
  838673678669094333991182616103575,
  838673698669100794161160129702010,
  838674678669101779671098356602075,
  838674778669099902421126151403404,
  838675658669095637211182142405901,
  838676708669098230001077289402323,
  838676778669099493761170942902118,
  838676798669101804571138079702005,
  838677678669100545921082659002235,
  838677688669098578291088324807007,
  838677718669100909351160190602074,
  838677738669100603761129872402235,
  838677808669100131761132058502574,
  838677848669099742821168394602224,
  838677908669097555031108540802295,
  838678888669098826201168984902272,
  838679698669098742931100811902530,
  838679708669099702311163696502803,
  838679758669099061061165505102485,
  838679788669100325391086703902164,
  838680658669095610171123881202245,
  838680678669100481541119173502032,
  838680698669099976941177632102006,
  838680778669097796491077960805314,
  838680808669095788831185511906251,
  838680818669098602891102382202404,
  838680828669098284501172313102472,
  838680848669097572471098215802347,
  838681858669098749581102726702427,
  838682658669100573821170102602033,
  838682668669101511111106799402039,
  838682888669099846341074482702229,
  838683658669097849011075581303312,
  838683668669097806281088271202590,
  838683698669094556291188477604939,
  838683788669098873971131535602394,
  838683798669097569921079519403083,
  838683808669100273291112407502761,
  838683828669097885991125475102154,
  838683848669098941921158407702837,
  838683908669098986601080568502032,
  838684678669099085781178988502105,
  838684758669097105421102048602328,
  838684778669097244341184585802344,
  838685778669095334901172282403145,
  838685808669097981401176667303056,
  838685816682084771811182305104821,
  838686658669100150401120579703417,
  838686718669098622041083125902249,
  838686768669099331851094130403893,
  838686808669099219941139998102410,
  838687668669100479421115217302049,
  838765656682075456651294042702896,
  838765666679080304181146324202443,
  838765676682073560111286100203591,
  838765698669093541421168173603083,
  838765706682073514571253307402827,
  838765726682079857351193432302325,
  838765736682084398141318945402312,
  838765746682056781231267348902056,
  838765758669091063631123961802492,
  838765776682066354701308476904166,
  838765786682075502561229819703329,
  838765798669091802591126126402335,
  838765806682074661441226823902951,
  838765818669093765461175876502689,
  838765826682076911911284144702968,
  838765846682072909251266634104795,
  838765856682075473301235958902850,
  838765866682075922301225404504037,
  838765896682074271631281640202991,
  838765906779090403551106981302394,
  838766656682071878921309536504844,
  838766666682074945001228159302722,
  838766676682089018051170750602112,
  838766706682079994081305029802741,
  838766716682074799951206152002810,
  838766726682078984851313962602869,
  838766736682087204571229375802069,
  838766746682076743591279559003339,
  838766766682088079941205839802564,
  838766786682073051321236056702377,
  838766796682075725271303466503542,
  838766816682076272211202818404067,
  838766826682085594021203922402295,
  838766836682078985231112619602489,
  838766846682079628441241777602820,
  838766856682079787221249139303214,
  838766868669094005291155013904484,
  838766876682075228131199657802892,
  838766886682072509171247669602650,
  838766896682071947111302953603820,
  838766906682077397201242326403155,
  838767656682085122191130984002355,
  838767666682076991111332200204195,
  838767676682076382101193975802705,
  838767686682074062861313489505888,
  838767696682073789391245982904310,
  838767706682076275441195176002673,
  838767716682071503281286995504060,
  838767726682079995001229324702820,
  838767746682078186891302480402699,
  838767756682077319601272802102984,
  838767766682080452981225808102669,
  838767776682076004281270662003378,
  838767786682075854971289801902784,
  838767796682075288001287873702919,
  838767806682076349461220722303818,
  838767816679077572211157478802555,
  838767826679072163611228316202328,
  838767846679072633891232110002334,
  838767856682078020001300876202787,
  838767866682074505851199147302676,
  838767876682076230271325693504625,
  838767886682076296461192978103247,
  838767896682077157501230207503004,
  838767906682074658801303916803962,
  838768656682075059721278260602925,
  838768666682074417751277819203086,
  838768676682073057431264199304516,
  838768696682077179201296614202722,
  838768706682080477521249558403417,
  838768716682068255601308299503509,
  838768736682078263721306656502771,
  838768746682075146381279620102886,
  838768756682076980031188267802680,
  838768776682075629681235959903476,
  838768786682078403611331464004001,
  838768796682075182021235792102699]

/-- Rows 10201 to 10400. -/
def rows51 : List ℕ := [
  838768816682073564921247257003352,
  838768836682074338261206908202846,
  838768846682075722951222976404178,
  838768856682078962341268826702820,
  838768866679073263531222311402361,
  838768876682076878851238334603342,
  838768896682075245941296188603175,
  838768906682074711541214661303181,
  838769666682078436951219707202951,
  838769676682074098461279033703017,
  838769686682082240891308732202686,
  838769698069085472861084348802098,
  838769706682075197731288463302899,
  838769716682073165541243270102446,
  838769726682078340221271471403083,
  838769736682083370141101163602412,
  838769746682079817161314494802988,
  838769756682076430311277280403296,
  838769766682074937221280824602853,
  838769776682075379171259929803837,
  838769786682080059271238960003017,
  838769796682090211101184471702262,
  838769826682074527811239333002801,
  838769846682076687721212005102558,
  838769856682090798361183385802266,
  838769876679074164021213654902656,
  838769886682073152091255370803145,
  838769896682076463601310945703197,
  838769906682074742671235171402666,
  838770656682073776961323729605281,
  838770676682073831551251532003191,
  838770686682078278481219486102863,
  838770696682076681151238861703345,
  838770706682079280701251603003001,
  838770716682077973851283211603116,
  838770726682080251181300140202640,
  838770746682081830121096466702394,
  838770756682074928821317592804297,
  838770766682079877701295827602656,
  838770776682071822271317880204073,
  838770786682086927541199753002203,
  838770796682074649021232868403037,
  838770806682079359621279631802984,
  838770816682079599401313187802943,
  838770826682074438441326523305166,
  838770836682076464161250666803575,
  838770846682073419301278521004822,
  838770856682073828591204997402866,
  838770866682069278721341327704569,
  838770876682075287081280896402919,
  838770886682078369571293040902650,
  838770896682080029601290452702718,
  838770906682080019631233223702820,
  838771656682075173471199830303378,
  838771676682081150941303107902591,
  838771696682072993821235178402344,
  838771706679080714761153750902295,
  838771726679073757551223788303299,
  838771736682078261501308599703138,
  838771756682077441061283073202801,
  838771766682071604601278947304067,
  838771776682074510931241814204464,
  838771786682082769831317517102771,
  838771796682074656411308596504303,
  838771806682073167771301202103995,
  838771816682075214771226447002755,
  838771826682073075391264533304707,
  838771836682080207491291750502755,
  838771846682072806661297875603844,
  838771856682077597261299420502738,
  838771866682077194741273861703004,
  838771876682074564971283968103047,
  838771906682075215621228105002988,
  838772656682075352901301822403553,
  838772696682079270301254640403352,
  838772706682079513281316613902860,
  838772716682072175961294061603591,
  838772746682079938601230085102899,
  838772766682074720551248788804247,
  838772776682071690521263357503345,
  838772786682079839571230186302853,
  838772796682078465921234453403017,
  838772806682075974191278453103047,
  838772816682074809741200563103060,
  838772826682068139621278125002919,
  838772836682071945411296094903729,
  838772846682082470501169235702230,
  838772856682067494511291290103542,
  838772896682085871841313115702285,
  838772906682079664851240333903010,
  838773656682075899461333273503854,
  838773666682079134171250818503096,
  838773686682076689241302214902909,
  838773696682076083221299854002984,
  838773716682074988921207443902879,
  838773726682075090391272689103355,
  838773736779087055531103055902131,
  838773746682072486311251722903683,
  838773756682075078841287137702935,
  838773766682072980401256494203499,
  838773776682073876691283264303142,
  838773786682075748041220056904188,
  838773796682072372671298572403562,
  838773806682072308011318363704729,
  838773816682076444361317966203401,
  838773856682080156261185800002476,
  838773866682088731491267354902479,
  838773876682076177051239601103398,
  838773886682072631631252639603640,
  838773896682078429051293270402647,
  838773906682068707001255163103519,
  838774656682078354651209099103100,
  838774666682075258161218671603667,
  838774676682074024871250280603197,
  838774686682076542831333206703279,
  838774696682073600601276668804634,
  838774706682079769871215023202840,
  838774716682075511121225647503083,
  838774746682074951831224963902755,
  838774756682075028071286608102984,
  838774766682070960851287373203345,
  838774776682077030391334321504067,
  838774786682078506351211132403083,
  838774796682074862141287419702984,
  838774806779088599061105717302257,
  838774816682069770421281508203392,
  838774826682078055441254811003180,
  838774836682074515631287259802692,
  838774846682078499881273775303165,
  838774856682079698881215045702525,
  838774868069084868411071867802394,
  838774876682072172411282204304529,
  838774886682070495531358423004762,
  838774896682073150461262653604625,
  838774906682074015011254659403654,
  838775656682074401181287406602951,
  838775666682080859141125514402699,
  838775676679073964741223687802495,
  838775696682078494601301545502656,
  838775706682069265391282987903093,
  838775716682076598441252451203623,
  838775726682074782801248660304050,
  838775746682074598221253882203821,
  838775766682077442701180002302590,
  838775776682075357771224938603390,
  838775796682085865901168603202131,
  838775806682074761301207121502866,
  838775816682080922771373505303362,
  838775826682071328191284114103752,
  838775846682071788851320975004612,
  838775858669091125871131565202274,
  838775866682079095511241382403096,
  838775876682068675321298039703352,
  838775886679073620861216803202394,
  838775896682069656851325257405064,
  838775906682078278031217409702984,
  838776656682078114081213639003030,
  838776666682082726501152301902190,
  838776676682072160261290427704464,
  838776686682075110551346585504510,
  838776696682074772701206571903148,
  838776706679074383191217901902725,
  838776716682077003561280934103335,
  838776736682072994211235315602361,
  838776756682079004861217840103164,
  838776776682074701751196295702971,
  838776786682076564781215251203837,
  838776806682080028871187664802535,
  838776826682074565181203413702820,
  838776846682079563971258287403197,
  838776866682074152041239115202544,
  838776886682074588151211694303214,
  838776896682069112261286339003345,
  838777656682078163191337316004828,
  838777666682072025981304098304165,
  838777676682068538431321103703936,
  838777696682072453271274421504707,
  838777716682076609641332223703637,
  838777726682074460631289798902895,
  838777736682069126851271324503329,
  838777746682070501271230402502318,
  838777756682090626161138798902354,
  838777766682076747061331260303821,
  838777776682080695241193253102432,
  838777796682072542781252583103716,
  838777816682079580001194449002367,
  838777826682075752071319129004067,
  838777846682077338471251713803214,
  838777856682085684851192951103640,
  838777866682092729231170463702984,
  838777876682086622411222758402069,
  838777886682072234191308753304789,
  838777896682078433901292939602620,
  838777906682073559381252947303000,
  838778656682084879771196302302118,
  838778666682075290461236585002722,
  838778676682080595361217717302673,
  838778706682079106441244305803033,
  838778716682077099811241647303279,
  838778726682075063071289479302820]

/-- Rows 10401 to 10600. -/
def rows52 : List ℕ := [
  838778736682079823891171704502407,
  838778746682074875131265072103749,
  838778756682081172641126869602394,
  838778766682074813731222912602493,
  838778777189093863191203796102282,
  838778786682092775721193813202282,
  838778796682086109201209174602118,
  838778816682075558501315083904756,
  838778826682075520231232288003460,
  838778836682073632751310660105642,
  838778846682071030801292005803493,
  838778856682086836011318895502141,
  838778866682073377051306460604707,
  838778876682076204581245419703525,
  838778886682075127511264979503650,
  838779656682073464241305997604625,
  838779666682087473221139161402207,
  838779676682067976941226331302443,
  838779696679073827211218085402688,
  838779706682092936031192770702282,
  838779716682076235161230364403469,
  838779736682078181561224285803200,
  838779746682078425421217257203092,
  838779756682072692461260618504164,
  838779766682074902551275960303351,
  838779776682075043861265103303889,
  838779796682074924611286064603050,
  838779806682080216911223723603188,
  838779816682073257501320032305148,
  838779826682074545161287759002896,
  838779836682074824161310437104289,
  838779846682076061191211016004106,
  838779866682072489721245881802423,
  838779876682088534861183783502043,
  838779886682074237421235022802619,
  838779896682073969171271866303239,
  838779906682074694661250992304164,
  838780656682081025511318239402673,
  838780666679077588331155768402591,
  838780676779090265871101998302377,
  838780686682092781231194098202282,
  838780696682079867931244036702866,
  838780716682078476601226665903309,
  838780726682074773251278658502978,
  838780736682087321391232169702087,
  838780746682079765991316375202787,
  838780756682073732901233479702591,
  838780766682077747011266124403083,
  838780776682078354031188167102682,
  838780786682077383451321239702886,
  838780796682079730311287585702787,
  838780806682075242441293323603001,
  838780816682079140541283106602705,
  838780826682072680481316595504428,
  838780836682077027331238147403690,
  838780846682076387111249853203706,
  838780866682074321021324506905806,
  838780876682073029211235831402377,
  838780896682074429561256628604149,
  838780906682075880711336478004713,
  838781676682072503701284027705140,
  838781696779091095171101488702492,
  838781716682068543111245745503706,
  838781726682079852371194554602797,
  838781736682088164001188615802282,
  838781746682076590871207299604132,
  838781756682083230201435164403781,
  838781766682073311921277473604070,
  838781776682074907821236229302688,
  838781796682070177451227780802299,
  838781806682068688411286270803148,
  838781816682071367951258966103391,
  838781826682092670681192209002279,
  838781836682069054071265591503424,
  838781846682080140781217693802738,
  838781856682075417041198725102728,
  838781866679073886421210300502833,
  838781876682079951121231732903050,
  838781886682076668511330955603578,
  838781896682087311841276302502384,
  838781906682069123351264427003509,
  838782656682076980421331090703923,
  838782666682075177701230499903148,
  838782676682077369731280644502951,
  838782686682073405671252750503467,
  838782706682076812221220150203644,
  838782716682079170661147684802492,
  838782736682077842791277155302993,
  838782746682074921471234458402757,
  838782766682077018521189503203086,
  838782776682074068431316636806264,
  838782796682081200821161419402312,
  838782806682079755841206145002623,
  838782816682074778241214121403033,
  838782826682075329881254279703542,
  838782836682073062901250921803020,
  838782846682072657101268043604346,
  838782856682074441261269197303460,
  838782866682077833271234626703378,
  838782876679074417481219532403115,
  838782886682074838971195532302764,
  838782896682074267761225280003853,
  838782906682075653571232846003306,
  838783656682077705261234667403476,
  838783666682074768261280186602951,
  838783676682078347201272626103083,
  838783686682074370921281869203079,
  838783706682074780921197808602863,
  838783716682076395141206758604136,
  838783726682080029081238461602932,
  838783736682078107991244115703280,
  838783756682093055271195122602295,
  838783776682074627471223149002525,
  838783786682075029351206846603713,
  838783806682076269831252623003690,
  838783816779091700011106047002541,
  838783826682076252301243623203772,
  838783836679073838811198830502863,
  838783846682079532391294756102663,
  838783856682077147851279750103230,
  838783866682075614401286159502837,
  838783886682079895031107839802673,
  838783896679074093721198406402705,
  838783906682080231171219358802741,
  838784656682074581351215908002938,
  838784666682081081451178803002722,
  838784676682080411371315484002653,
  838784686682076117841275931303066,
  838784696682076090031233390903132,
  838784726682079760501217491102883,
  838784736682075484161202155602791,
  838784746682075392171222024103070,
  838784756682075797681197131402797,
  838784766682077498401187119003371,
  838784786682074953691212712203345,
  838784796682079825891310618203083,
  838784806682089582321149603502220,
  838784816682072227341312350604247,
  838784826682090120301114536202246,
  838784836682075344601225549703388,
  838784856682076527751211320403814,
  838784866682074941721220303303354,
  838784876682074298621207561002833,
  838784886682073849841270275903201,
  838784896682077561441335966804067,
  838785656682076667421297956003249,
  838785666682074324701208038103115,
  838785676682078795911293136802689,
  838785696682079300301240606003197,
  838785736682082276841129665402397,
  838785746682077798641246194703230,
  838785756779091220391107988002249,
  838785766682083784821315751302407,
  838785776682076556571197234002984,
  838785786682079826361224287302886,
  838785806682075978881206324103575,
  838785818669092836641163482504854,
  838785826682081503391356107103946,
  838785836682075769381222896303798,
  838785846682075776631222208404001,
  838785856682077870701257980603148,
  838785876682074882991231633802810,
  838785906682073738711320257305269,
  838786666682074979321200331502886,
  838786676682080017091288532002889,
  838786686682072029011274166604592,
  838786696682080240371119517602666,
  838786706682073986551200677202709,
  838786726682080477671237570403149,
  838786736682078482961316843602787,
  838786746682076331661239982903519,
  838786756682076967391246725603411,
  838786766682074105361246797304444,
  838786786682076372321202028904028,
  838786796682078626381246180403017,
  838786806682091155781296671702033,
  838786826682078096511245406603460,
  838786836682074143741199525202675,
  838786846682077881261273489403050,
  838786856682068270641254221803099,
  838786866682074249311198910902692,
  838786876682069465961343841704589,
  838786886682079754961198528602597,
  838786896679072434771235078102361,
  838786906682075251501236438304362,
  838787656682076600151308369903201,
  838787666682078744931250688103083,
  838787686682088307631162106102207,
  838787696682074030081332838805287,
  838787706679073435111221673202676,
  838787716682071447481296180503699,
  838787726682068012761260956103099,
  838787736682074325241264172303995,
  838787746682073317531236974702348,
  838787756682087473371222392002098,
  838787766682074317261277310503119,
  838787776682071227081390464002663,
  838787786682079681891234199003201,
  838787846682071297231346619603936,
  838787856682075460891309065703680]

/-- Rows 10601 to 10800. -/
def rows53 : List ℕ := [
  838787866682073296911239692202381,
  838787876682073310631238200102367,
  838787886682073250321236303702338,
  838787896682073412391237162702354,
  838787906682085884471417466002013,
  838788656682074957111285953102889,
  838788676682077120091187016202981,
  838788686682068440611311984403762,
  838788696682076125851267498003161,
  838788706682077544981343218504438,
  838788716682077999321265958102997,
  838788726682076940891337411104999,
  838788746682074459601240137902568,
  838788756682076731941231067603240,
  838788766682077897351300454302600,
  838788776682079823051250469302886,
  838788796682082863911272719002800,
  838788806682076272131211071003949,
  838788816682068341361302618703575,
  838788826682074353241212236102787,
  838788836682074206601203638302951,
  838788846679073894841199339602853,
  838788856682079340341115123602492,
  838788866682075303561276500303033,
  838788876682074031821201082502722,
  838788896682079643771293291402869,
  838788906682076690821197035002899,
  838789656682073952681250481703082,
  838789676679074315721218844302849,
  838789716682070379931397957102187,
  838789726682074711011216846302984,
  838789736682078443941330169804067,
  838789746682082373901239293302860,
  838789756682072931371234134902358,
  838789776682075360391205464102951,
  838789786682082825141201553602525,
  838789796682068508801289735803335,
  838789806682076051571242203603493,
  838789816682078526071235643403135,
  838789826682074657581212023803001,
  838789846682079986871323137603132,
  838789856682075551341291313402781,
  838789866682071738171310888903476,
  838789876682073161671261622504241,
  838789896682075116841277205302994,
  838790656682078639601218809702984,
  838790666682073001341235387902459,
  838790676679073753081211012402492,
  838790686682072740121298577503699,
  838790696682074939811206216603099,
  838790706679074503861215951402902,
  838790716679073982741211057502800,
  838790726682072423171298217803918,
  838790746682075452811293426703033,
  838790766682071852211382818703106,
  838790776682071013161294279603716,
  838790786682072674881295736304210,
  838790796682074659411248584704165,
  838790806682073614991257941203050,
  838790816682074154741299224403344,
  838790826682074618961289637802965,
  838790836679073336311223296402787,
  838790846682070739791355259304451,
  838790856682067529821274001203001,
  838790866682068141331232251903001,
  838790876682079675461277864603036,
  838790896682078426471217640802984,
  838965726682087523141206770502587,
  838965786682086037791208726702302,
  838965806682085982381213915402302,
  838965876682087348941207961002797,
  838967747189096491901217391902095,
  838969667189095614891222266802148,
  838973666682084279521197129803647,
  838975756682085279451200141105199,
  838975826682086244881206854302299,
  838975846682085348601201630304300,
  838976687189095966041217227402180,
  838976806682087600371205614502548,
  838976847189093368391202036102351,
  838977686682084726981208468302272,
  838977806682086997771203619202397,
  838979826682085270111199639503798,
  846580656571107130241181963302062,
  846580726571107615171181652402013,
  846580846571107552761182276602013,
  846680666666103070621204915302168,
  846867706877105332411186080702013,
  846880686877105544331186923602073,
  847070657180106299331189180402009,
  847070667180106019611182530102055,
  847070677180106255791187328602009,
  847070707781104588671189830902016,
  847070717770108101521169474402006,
  847070746676107904361171533702000,
  847070777180105867611187241802016,
  847070827180106268301184520602035,
  847070837180105864931184167102009,
  847180897168102004301182011802041,
  847180907168102476341185241402005,
  847383848673108336871150165702023,
  847383888673107700061151837702065,
  847465668082108447941133194202023,
  847466818082108489951128546402237,
  847467808082108315021146923902049,
  847470658082108306961143333402064,
  847473718082108455841138936002010,
  847477908082108254041128445402028,
  847480838082108011241134275302029,
  847482868082108236301143436802038,
  847483748082108438761139851402009,
  847486818082108133451145003602049,
  847580757578107305501172721702170,
  847580787578107205621174044002014,
  847680677667104017721189987802022,
  847680767667103733201190347402014,
  847867656587102504391099725302060,
  847867666681102131441117182502020,
  847867676787102192111110248602029,
  847867696681107492701170158302129,
  847867777770108039371168803902012,
  847867836681107645411167768802105,
  848180706573108204881169382802127,
  848280717783106791341178038802551,
  848467808484101150561191552802036,
  848480808484100595331186481402057,
  848580658671108736321156706302009,
  848580748671108442381154525702015,
  848580878671108446761155661902009,
  848683668667102989631187330402014,
  848683677168102703301186505602016,
  848683778667102886521188155102008,
  848683857168102596991185817602016,
  848683868667103141231187835002066,
  848875706677122366691153059002012,
  856565657590133340962570180704234,
  856565727590136887322549917003446,
  856567677590141010972514495703165,
  856567807590144770242491663502452,
  856568687590132863092512915804184,
  856570677571131443572561139208935,
  856570767571132585002567016707423,
  856570777571133058022544521604058,
  856570786778132733812601942207902,
  856570797571130615002527816704927,
  856570807571132543752583983607509,
  856570877571132858442548310704549,
  856573737590132367762494628003385,
  856575687590137701512477256203250,
  856575757590139663042533150703765,
  856579767590135614102431931402299,
  856579787590136044202432228702328,
  856582827590141144242315279502125,
  856583757590140043942624808902939,
  856583807590142186672570616702410,
  856583837590140349782602127402761,
  856584697590133867622310769002073,
  856584717590137133612318113901928,
  856584847590140255492371918102738,
  856585857590143216672435433302595,
  856666666590130486672300633302010,
  856666716590130744642263059203083,
  856666786590129198992254455604863,
  856876836577131054312243281606836,
  856883716577130737152238517107000,
  856889656590129973712269952002961,
  856889696577130111502244563004948,
  856889906577130147152243732904838,
  856966668285157647703146935802734,
  856966788285161438133161753502049,
  856966838285157795943103631603646,
  856966848285160006263156252102262,
  856966878285157537873133895802475,
  856969658285148599603054018904240,
  856969698285152082693097535002325,
  856976768285146908113048862404813,
  856977658285156457793232507302649,
  856977728285152786573168400202908,
  856977748285153245263231532504454,
  856977778285152121463095808302623,
  856977798285150397093004532902751,
  856977838285153962753074092002157,
  856977848285154546213230893303738,
  856977858285150350713144234502551,
  856978738285153457703002503802377,
  856978758285153892853027729102362,
  856978788285153292152983166502406,
  856978838285152193452976281002442,
  856978878285153759103016759502360,
  856982658285155970342915379704066,
  856982688285149461662915336002902,
  856982768285150717942948084202835,
  856982798285158525042924784102639,
  856982808285156413722920206103660,
  856982828285152527682940165203156,
  856982838285161935932940772502029,
  856982848285149460392925608202590,
  856983718285158541953262194002082,
  856983758285157460893336963802049,
  856983798285160621193278728002065]

/-- Rows 10801 to 11000. -/
def rows54 : List ℕ := [
  856983838285158744633413240702022,
  856983848285161684343088972902026,
  856983858285155749693308779702134,
  856986868285156802903033564202291,
  856987688285159392133198636002941,
  857175797169132174822224676802223,
  857183667169131616222215901602105,
  857184667169131677822249401103624,
  857266666778140437813074084502638,
  857272728285138514683151727602244,
  857277658285154719793577321902194,
  857277688285154347460067579802071,
  857277778285149911863306896102574,
  857277808285159794193505896902011,
  857280658285150563283491003502010,
  857280758285146230693426859102200,
  857280768285149084913398774202112,
  857280778285144672153385264802410,
  857280798285146084753398712302331,
  857280808285143184193384440302131,
  857280848285150377503460207102007,
  857280888285145174833460447802049,
  857280898285146315793407925802499,
  857283667480134927043276112102079,
  857283838285136870363227172702059,
  857287878285133391343121291202046,
  857365658285142030352932855404272,
  857365698285140041482980546904122,
  857365788285142001592965391603564,
  857365828285146908622982599604329,
  857366668285146373512816928003610,
  857366868285146488282840926003916,
  857373668285142929842835579803499,
  857373738285142272172843743603675,
  857373788285141678172821466604460,
  857373798285142831822847193103771,
  857373828285142359352841956603417,
  857375668285147860192942278102793,
  857375698285151269442880173903000,
  857375758285147770082880420602833,
  857375778285148319552928831202658,
  857378788285144892972790609103338,
  857384758285146273722875601303148,
  857384848285146861872857150204188,
  857385668285144364892934674005077,
  857385788285145790662895871203512,
  857385858285141804982874165003690,
  857566668565140352092108816802421,
  857567678565138074802176987602791,
  857567778565137065342174434702251,
  857567878565138419772193550002636,
  857568688565138357222150812602481,
  857568698565137856662153091102373,
  857568828565138054442132116702408,
  857570708565135036212139679502639,
  857570738565135082332135903002052,
  857570758565135370672163926702152,
  857572728565139925452162735002507,
  857572808565139570602143766202000,
  857575698565139425242119866002375,
  857575758565140401132104369902586,
  857575778565140617692101812802517,
  857576738565138886672046700002919,
  857576768565139820832039438903071,
  857576788565138268222059740202826,
  857576828565140612712061253602755,
  857576848565139526432056868803072,
  857576858565138636402022498802383,
  857579728565134571882133940102039,
  857579788565137050632119067402184,
  857579798565136438782106712602172,
  857665658285154601562206907302062,
  857676738285149799942102182902078,
  857677778285158790982127336302266,
  857679798285147775382083904102154,
  857680668285151874842141453602151,
  857766666689142113072038788502468,
  857771716689142531122109987802472,
  857773736689145121002103316002683,
  857775758285144885482005748402042,
  857777656689143085082060309102615,
  857777716689143597002040430202442,
  857777776689143869662075273302748,
  857777836689143894872080125302669,
  857778666689143103372092261902502,
  857779796689143963782100809702636,
  857865658285143726762713746702831,
  857866668285143358812635187602838,
  857867678285145084252629027302558,
  857869698285145261572660869502863,
  857875768285146179482724658702942,
  857878698285145079372630017402665,
  857878848285145010102626227602365,
  857879708285145081632529795402312,
  857879798285144964502532914502312,
  857879838285144965802535324302311,
  857968688285163516902603555002042,
  857972728285161972872824547402095,
  857973738285157444922666043302082,
  857979798285159297992673089502595,
  858275658285134994252173366602173,
  858275758285135026032191733702118,
  858277768285132826432276429502012,
  858277778285134234422230612603054,
  858277788285133508252236244303462,
  858277798285133207802245885803673,
  858277848285135106412220965703486,
  858282828285137249762198069902280,
  858283838285133439492199258902089,
  858287658285136284512279901501935,
  858287738285136375832243170702501,
  858287878285138788102243310102482,
  858367678285145309212414788902769,
  858367778285143379122387488303431,
  858368688285156584922465841402219,
  858372728285151025312490610102141,
  858375758285148593172297444702489,
  858378788285150938722564638102177,
  858380808285147904522360017702404,
  858382758285152201502545379602220,
  858382828285151343642533758102200,
  858383838285146742412407790602764,
  858384768285147147442454734402321,
  858384828285147169202452812502377,
  858465658477128000242383431402692,
  858465758477130074442330038902279,
  858465778477127632782418972202728,
  858465848477131761312398253102272,
  858465868477129094442436066702630,
  858468688474128543502488068404575,
  858468758474127975002498016704293,
  858468768474130213452496761703450,
  858478858590131594522406300302320,
  858479688474127509782515092808700,
  858483668590129761672444800002751,
  858483768590128831072459074403365,
  858483838590129701932469657704224,
  858483848590127283332472933303027,
  858484848590131252442492580903417,
  858566808285143224852141737702663,
  858566838285144744112120520602000,
  858568688285145423282179080002588,
  858568768285147554622201349002305,
  858569698285145967102173862902622,
  858569778285146821822157379202469,
  858577798285145506792174876502561,
  858577838285145204922186746402419,
  858579668285140649692165746602734,
  858579758285141756892162805802686,
  858579798285141820952192169902514,
  858587878285145586552172576402685,
  858589898285151636572308363202342,
  858771718285146242002237866602256,
  858775688285145618732292524502411,
  858775698285145557062320780902643,
  858775838285146086782273280602560,
  858776878285144381762287824502252,
  858779798285141795762354385902387,
  858779828285141069502385753802909,
  858783838285141571672260333302499,
  858785858285144573272358497702449,
  858787878285143518572301690202477,
  866565727378113066002526226502189,
  866565757378110700322570529502999,
  866565857378109862352553869003911,
  866566667378109088422528479902037,
  866566737378111995192621094602899,
  866566747378113279852496614702268,
  866566777378105858002546102804487,
  866566797378112328212532179602129,
  866566807378113291382573239903719,
  866566867378111748962521771602044,
  866568787378110422972528375002033,
  866568837378114265202522005102485,
  866571787378114657872573445303600,
  866571797378105377802538171002183,
  866572667378105360762550771204171,
  866573687378112717452557910303850,
  866574667378113173142600437703624,
  866574777378112457302499964102069,
  866575697378113108302500945902096,
  866575747378114807212599159902728,
  866575807378106662512542833303996,
  866575837378111313082502652802167,
  866578807378111109022590338303033,
  866578827378109963962538011203959,
  866580797378108582892539062703942,
  866580827378111648492496505902023,
  866582717378107009092533233902305,
  866582757378112303532507730102441,
  866582807378111175782617307603041,
  866583767378107633012559311703584,
  866583857378111110442527382102016,
  866585687378114616222538849403684,
  866766737675097168742598749102030,
  866767657675098296842604230202324,
  866767667675097703382616744202020,
  866767677675096815072598816602022,
  866767717675097334992616213902150,
  866767747675099785102600626502033]

/-- Rows 11001 to 11200. -/
def rows55 : List ℕ := [
  866767757675095992172603162002010,
  866767787675096553532599732902010,
  866767847675098533002611725102006,
  866767877675096252492612300402050,
  866866717572103093012832176302059,
  866875727572102266082845643302056,
  866880807572101537132848343302040,
  866883827572103402952838040802060,
  866883847572103526042860124302203,
  866883867572100573982836340802033,
  866965787378118174572748008902900,
  866965847378113897262712412602046,
  866965907378113741482728020403001,
  866966687378116693562683289202412,
  866966737378115697262719729604910,
  866966757378113648272661428702715,
  866966837378110257242658078402138,
  866967657378117454232751070602367,
  866967677378112642192684463102016,
  866967797378116327072694634602138,
  866968667378113833192664200902847,
  866968887378112351822672127502200,
  866971757378116744562634370302259,
  866971847378116094672715806302162,
  866971897378114746752649402202380,
  866972757378111584572640024902658,
  866973777378114749762738889904540,
  866974727378111909582640421202751,
  866974837378112812322661629802505,
  866974847378116722652741658502311,
  866975827378114304142720049402079,
  866975857378114908442729711602352,
  866976807378113851792726179003398,
  866976827378117287912740898302330,
  866977787378117478032750103102362,
  866977827378115888762737615002487,
  866977907378116120482653077802174,
  866978807378110865362625194503058,
  866980727378113485012674206902240,
  866980847378115588062650789402170,
  866980857378115759562673967902129,
  866982677378113322532653116004148,
  866982757378112256542648057202659,
  866984907378116700292727750702240,
  866985757378110093892631815302680,
  866986907378107715612632181002015,
  866990797378117593762738284207403,
  867166826668112809242703002202023,
  867167666668111461342719620402012,
  867169716668112240812718026502012,
  867173836668114158352690463502045,
  867174826668113193832691563302020,
  867182746668114445332686149602064,
  867183686668115766962689056902125,
  867183896668114968342718536202050,
  867184746668113791132703789502024,
  867190826668113855022703885402030,
  867272727275112310482938963902028,
  867283757275112439692940717702050,
  867365717378117149422579515002551,
  867365767378115443562617260702322,
  867365777378120378262568023002909,
  867365827378121723302547906402756,
  867365877378123884702549613407393,
  867365887378121442172557482402775,
  867366757378118061742531972702750,
  867366767378116988822608793202385,
  867366787378115452922628486002266,
  867366827378121881442571522105573,
  867366847378120278382547447402662,
  867366877378118839362561743002720,
  867366897378118426692594379002580,
  867367717378120678522567754703012,
  867367887378116404142604001402405,
  867368687378118588092572000502705,
  867368707378119598382602350606910,
  867368787378120188792581745303831,
  867368807378118567172570848302777,
  867368887378118707782573448802700,
  867371717378122170472562594104525,
  867371827378116287312582158002617,
  867372827378119182222557499302700,
  867372887378120756652556189902790,
  867374787378115495312585553802801,
  867374797378116242312530391902717,
  867374807378116822872557981603263,
  867374827378116879572508556002751,
  867374857378122698382548368303029,
  867375657378116442532603593602411,
  867375797378115158872558396502896,
  867376687378120857862559459102834,
  867376727378124131332575326112682,
  867376757378116760412608755402410,
  867380757378122221462556322603017,
  867380767378120319342563613402820,
  867380847378119034142594681302769,
  867382667378116248442613718802360,
  867383657378119553142549948002650,
  867383777378121086402570643707072,
  867383807378119993882574111302891,
  867383827378123998992547607107429,
  867383847378114563812608499603060,
  867385847378115801402514775402500,
  867385887378122914562551559104066,
  867672837665110264112804342503380,
  867676667665109892472821516302955,
  867676787665111040562814700003968,
  867680837665105138212857772902351,
  867680867665109458082832152805628,
  867683757665106550892847546802509,
  867683787665110417162840613105281,
  867686848472107997972825532503850,
  867777677779112162332935861302020,
  867866717880119537102611803605996,
  867866747880117149452670506505969,
  867866767880118210382636644305320,
  867866807880117681602644254003968,
  867866827880119502942616654906300,
  867866847880119457632605380302000,
  867866877880117506742634087102354,
  867867717880116571992680715702315,
  867868717880118109062622744004100,
  867868727880118755172605747502690,
  867868767880119667402605451104132,
  867868807880118984212628197310199,
  867868847880119263542609346302000,
  867871757880118034212644646603394,
  867874737880117629602662295308085,
  867874767880119283332621864809700,
  867874807880116708762659173202256,
  867874837880118778532637199210880,
  867875717880117180742667697806432,
  867875847880117683812653534206390,
  867876687880117252272666700706048,
  867876757880117685142667254511100,
  867876846778118200532655838415530,
  867877657880118642132640850713115,
  867877717880117576042642237102000,
  867877787378118964642601454402650,
  867878717880118102572616594502540,
  867880757880118195842639774404712,
  867880767880117515082665840510054,
  867882667880116511472667299802250,
  867882677880117390952660593507511,
  867882757880118625442621928404500,
  867882847880117304972665506606501,
  867883667880117813192667081414500,
  867883737880117154222649788902450,
  867883757880118580542616340904230,
  867883827880119234982612143504280,
  867883846778119971672618091411246,
  867884747880117350222676933609939,
  867884807880118519132611191502515,
  867884827880117320242671915806297,
  867886847880116481722672565202246,
  867965827378103061642596750002265,
  867965847378100818902521726102014,
  867966717378102948822576555404912,
  867966737378105165512568784602030,
  867966827378107896972574834304178,
  867966907378106528892607888302082,
  867967667378101021892570348903324,
  867967677378099955432562711902008,
  867967737378100151432563864102030,
  867967767378101139312559424402342,
  867967807378104511492587681102430,
  867967887378099141062728153402005,
  867968717378107631392583901604013,
  867972757378107552482585126804020,
  867972897378107452952584538903742,
  867977687378099833962580850602459,
  867977767378102961472548835102337,
  867977777378102984142601529502052,
  867978837378106542402593115102658,
  867980667378101629242727208302014,
  867980677378101966722598048702118,
  867980787378104149762577808303558,
  867982897378107105712618116202151,
  867983777378101776572580609503008,
  867983887378101006092571510203250,
  867984747378100719452590946102253,
  867984807378103630962595328002350,
  867984827378100765182587072702288,
  867984867378098493152569093602015,
  867984887378102909952601168902090,
  867989757378103135622575959105045,
  868180826684117410912694197209332,
  868277717786089308472531438402006,
  868277727786096739302531679902004,
  868277757786091854252535196102004,
  868277777786094206292535288902006,
  868277847786090493212529947402002,
  868466678472102636172820259902112,
  868466688472103897062805960002009,
  868466698472104513802809174302060,
  868466718472104129932794530302200,
  868466728472104945762806368902095,
  868466738472104082242813792702080,
  868466758472104091182799109502030,
  868466768472104883902806599302098]

/-- Rows 11201 to 11400. -/
def rows56 : List ℕ := [
  868466788472102417462798663302074,
  868466798472102270242823133202085,
  868466808472101785172797899202010,
  868466828472103577512797532202050,
  868466838472103656332807517302005,
  868466848472103230262809541002072,
  868466858472102695832810063502059,
  868466868472102253872825152202010,
  868466878472103764432823101702200,
  868466908472104771492806503902065,
  868467658472110189702804050803175,
  868467668472109491532802855503275,
  868467678472108780872789627003036,
  868467688472109291932808567202865,
  868467728472109304252779668202929,
  868467738472109375212784370603679,
  868467758472108823192779300104000,
  868467768472108279792795035102811,
  868467778472108676422791017602990,
  868467788472108799512807800902685,
  868467798472108554832790139302955,
  868467808472108125392801639702538,
  868467828472109892702798270203312,
  868467838472108177092779302302732,
  868467848472109940492798759703280,
  868467898472108679602791107402988,
  868480668472106685522811951202450,
  868480728472102645142799481602062,
  868480738472105290922802961802107,
  868480768472106819882812507502500,
  868480778472106699752785379702690,
  868480788472105669292801317002113,
  868480798472107247482798183602179,
  868480808472106793892802708302145,
  868480828472103662492797265302100,
  868480838472106827022805379802212,
  868480848472106896022792463102478,
  868480858472107678012802402202265,
  868480898472107229612790526902492,
  868483658472096666412800797702018,
  868483668472099122832791260302020,
  868483678472096511612817398002018,
  868483688472100504252790828002100,
  868483698472100706452793533702018,
  868483708472098530142799437302013,
  868483718472098106472789801202082,
  868483728472097191282806032402012,
  868483758472096785032811472402008,
  868483778472099557212800615502064,
  868483788472098481492799543602044,
  868483808472098111892783032702082,
  868483828472099769342785818102057,
  868483838472096930832803793002090,
  868483848472097507242796071702067,
  868483878472098020002784012902050,
  868483898472096524162812448702092,
  868485678472105767252819443002650,
  868485688472107392702827754602579,
  868485698472106975152839719302960,
  868485708472106961992839675202945,
  868485718472106367202821631402705,
  868485728472104602752815729303550,
  868485738472107186822841099702529,
  868485748472104861362834973202478,
  868485758472106455052827759102670,
  868485768472107430032817191902860,
  868485778472107863582827314102540,
  868485788472104928122820664102729,
  868485798472105221752832475902590,
  868485818472104944942823041702765,
  868485828472106074532836448802459,
  868485848472106153632845897302524,
  868485858472105242822848592902406,
  868485868472106126262837742202451,
  868485878472107393042846362302587,
  868666778678102668532881064703729,
  868667658678105417542886937402010,
  868667738678110816082867139902006,
  868667828678101985092892148202040,
  868667838678098734762866247502020,
  868667848678100079692857024302009,
  868668668678111405042830019303611,
  868668788678106057682881984102033,
  868671768678111032742858820502050,
  868675808678111390742862512702055,
  868678668678111224702857863502039,
  868678848678102231812891845202020,
  868680668678106402172876900002048,
  868680678678103966512890345102080,
  868680758678104004672880087504434,
  868680818678100225242839577402023,
  868680828678101624062889416202101,
  868681788678103760002890469402019,
  868684728678103037162893273102020,
  868684838678100811332866368502033,
  868686728678108748322856692902023,
  868965787777109780852740265402074,
  868965837777111942922763998405000,
  868966717777111190402749302402312,
  868966777777114275442772418102370,
  868967737378104135492733674402020,
  868967907777111931692760882402252,
  868968877777104112752781997302084,
  868969767777109638932761935702302,
  868972727777110758612767921505858,
  868972767378114915132749080402534,
  868975718472111307132796261404798,
  868975767777113188612740429402499,
  868975807777109432782735348202020,
  868975848472100041422785354402180,
  868976757777109684332772142804940,
  868976837777112970632777515904450,
  868976897777110945612748228802175,
  868977687777111720022759744102300,
  868977697777102452002786220302075,
  868977757777115376842773464702475,
  868977777777106438812776563702052,
  868977797777113095222766392802600,
  868977838472110520492792507303875,
  868978807777115369542772950202459,
  868978837777110875812777279105100,
  868980657777106888432776712402150,
  868980787777106812572747742602020,
  868980846778117339392774249803500,
  868980897777108821822752601102120,
  868983847777110930072759130902630,
  868983877777110134722728640702027,
  868984687777108453682742974102020,
  868984768472110476192799291103280,
  868984797777109047732764012902160,
  868988717777111400112741255203345,
  868989897777106897932761268802109,
  876565657368084945712995454802047,
  876565667368084510513025697602137,
  876565747368087411832990277402023,
  876565767368085744783024955502500,
  876565827368085236923025594602117,
  876565847368086957992998176804884,
  876566657368088682523122857703415,
  876566667368088815273160928602046,
  876566687368085990093160354907113,
  876566697368086290943182008808351,
  876566707368089049353148175002050,
  876566717368085954453162758307612,
  876566727368086072613184584008846,
  876566737368086637803154943402025,
  876566757368086312213184791307120,
  876566767368086023073176195309965,
  876566777368085555693208800102389,
  876566787368085291143164332302035,
  876566797368088128593162394502055,
  876566807368085477473168782102103,
  876566817368086297633179535607910,
  876566827368086089063162275107804,
  876566837368088842023124660203539,
  876566847368086073763163741307802,
  876566857368088830373160729502000,
  876566867368086260793170292409328,
  876566877368087786173164390302058,
  876566887368086259653168577207674,
  876566897368086170423163846507840,
  876568657368081439332960851702052,
  876568667368081465892986823202003,
  876568687368081251292951536302014,
  876568877368080337343002984002039,
  876574657368087069413207823402206,
  876574667368086315813186736106457,
  876574677368086727523186106002230,
  876574687368088065673190140002001,
  876574697368086394053209068503228,
  876574707368086583503205501902679,
  876574717368083814663186340702018,
  876574727368082023143188511802039,
  876574737368088128753187518802060,
  876574747368087428893205085902289,
  876574757368085302813207201807230,
  876574767368086922393199498002776,
  876574787368086212653193838503492,
  876574797368085095333206221706294,
  876574807368084195833198547502062,
  876574817368084309243193468702056,
  876574827368086766223209850903481,
  876574837368086551323207803802870,
  876574847368084581253204361402218,
  876574857368086324313208815703028,
  876574867368086269723187091706327,
  876574877368085910143189486107421,
  876574897368089578483121854602035,
  876575657368085394593176563702166,
  876575687368084125633207089302122,
  876575697368082822323195827802026,
  876575727368083833903192636902103,
  876575747368088613503138721208471,
  876575757368081487583204156202010,
  876575797368081905283197206302011,
  876575807368083461323193304802020,
  876575847368083901513202986402074,
  876576667368093897212956880705120,
  876576717368092831642973710902010,
  876576767368088727342968841502012]

/-- Rows 11401 to 11600. -/
def rows57 : List ℕ := [
  876576787368091800212949044504425,
  876576817368089688592974147902049,
  876576827368093320382975554502020,
  876576837368089511942971547902033,
  876576867368093452172978645902118,
  876576887368092004752977417202047,
  876577657368091836623077851602152,
  876577667368090689043042736102591,
  876577697368090915783083792702045,
  876577717368090638403028398002059,
  876577727368093687543055255702016,
  876577737368091124373007912602025,
  876577747368089924343094584302072,
  876577757368091189513078961702029,
  876577767368089091452999052102284,
  876577777368091559343049255602264,
  876577787368094010333066733702023,
  876577807368088579023006549502174,
  876577817368088127813002646604542,
  876577827368092045743083139202049,
  876577847368090837723073764102049,
  876577877368088956293027685402867,
  876577897368091101113014109002028,
  876579727368086012682960967702197,
  876579737368087299842916677302075,
  876579787368087780312954308502197,
  876579797368086559692947514702066,
  876579807368087783742939392602082,
  876580657368086655493089234102002,
  876580667368086893443105069702029,
  876580677368085479143099018602052,
  876580687368084226253142091502018,
  876580717368086142423066964502001,
  876580727368089362733074998102087,
  876580737368082013683113035402217,
  876580757368083929363142700702168,
  876580767368084338623127255702010,
  876580787368087904323059661202001,
  876580797368082872263117631702107,
  876580807368086281753080811502033,
  876580818476081985213071970002001,
  876580827368086765913070986402081,
  876580847368088356143045588102060,
  876582657368082081682927116703726,
  876582737368082397002914340002360,
  876582747368082211442904218002350,
  876582817368082481372907452902421,
  876582827368082622352927734502009,
  876582837368083035122903663402010,
  876583667368087900603135145002050,
  876583677368088505913141710502089,
  876583697368089190173130501703869,
  876583707368087080383122623802220,
  876583737368087872373121575502013,
  876583757368086348373136942402035,
  876583777368088408893132937802383,
  876583797368087462343134365802010,
  876583827368089117233140489102041,
  876583837368089067913111164202010,
  876583847368088556453120189002140,
  876583877368087282673145060302044,
  876584677368081354193022304402115,
  876584717368081403443004708705510,
  876584827368079230193030718502197,
  876584837368079505703018447202250,
  876584847368079825253036605302335,
  876584877368081633423034366602016,
  876587737368087367063010986302098,
  876587777368087437873003230002164,
  876587837368087471413013538703388,
  876587877368085916683024089302538,
  876665756678094633172943758402019,
  876671667789093135952930178702074,
  876671687368094213092955892804400,
  876671707368093419032951514603583,
  876671717789091480632903367302089,
  876671737368093974252950658702640,
  876671747789094802862950063802014,
  876671757789092905932920712602015,
  876671767789093308432947840302247,
  876671777789094179582943266202052,
  876671807789092012912929308702063,
  876671827789094310832939815902059,
  876671837789092269652919758802122,
  876671856678094552832954907703306,
  876671876678094846272954073802031,
  876675667789096355502964722202046,
  876675687789095034962983184402045,
  876675717789095359542961640203040,
  876675757789095924782960459402010,
  876675767789095309212952443702101,
  876675787368094412602957243205300,
  876675837789095899322980499602046,
  876675847789096921532968349102033,
  876675877789094306962981116702057,
  876676667368093202352953994303470,
  876677856678094042752948011702080,
  876683666678094930012949198202073,
  876684777789092173362911971602015,
  877365777368082657582882434403148,
  877365807368082539072894145202172,
  877366667368090470882814448302102,
  877366687368091602132814295202055,
  877366827368087903222797039302001,
  877366837368091373222821400602012,
  877366847368091053142833888102020,
  877367667368083711962865608602151,
  877367677368083102672875666904436,
  877367847368084764032851735302282,
  877368688371091107452841066102126,
  877368787368090916582845266202052,
  877372727368083727772868787702084,
  877372767368082359262890292402069,
  877373677368083239542885359502089,
  877373717368084353342865543602010,
  877373737368083857402866435602034,
  877373807368083671982867651502200,
  877373857368084201722904752602024,
  877375717368090851372803703902151,
  877375757368089525052845761202095,
  877375767368086712692829157002410,
  877375777789093353502862580702010,
  877377667368091166622776986002020,
  877377697368091402552794246702922,
  877377717368089134152803485902009,
  877377727368093682412786368102049,
  877377777368093549082786622202090,
  877377787368092260082789847006059,
  877377797368089979302782959602007,
  877377837368091560312788825202043,
  877379667368090830482894813902260,
  877379687368087262612877543602164,
  877379717368089651872917431702123,
  877379737368091079012896925802333,
  877379757368088189622899625802046,
  877379787368093920302883883302007,
  877379797368089858682894000602010,
  877379807789090836862929328102297,
  877379837789090062792914676602098,
  877380657368088367702836374702082,
  877380677368088637632819609402301,
  877380687368085217082839308804100,
  877380727368087909912814628404606,
  877380737368088874022821323402138,
  877380747368088358762832864002079,
  877380757368087846502861366802108,
  877380767368086143262823317202050,
  877380797368085599942843967802450,
  877380807368087106132846895302037,
  877380817368086709002838764202184,
  877380827368089648142823292002062,
  877380847368089224352802755802018,
  877380857368087460932810854002016,
  877384657368093173162772848102014,
  877384677368094047792762486702013,
  877384717368092409452763231102027,
  877384767368095074092772570402028,
  877384777368095222762769429702090,
  877384787368095875212753314102393,
  877384847368095534572754180902065,
  877765807789092037672833031402150,
  877766847789092814162841580402015,
  877771757789095798312824752302020,
  877775657789096180522803898102015,
  877775667789095476922803918302011,
  877775677789096168472822835402016,
  877775687789093788322832097502058,
  877775697789094543072834249302018,
  877775707789093105442816979802111,
  877775737789094561872810868402130,
  877775747789091655482836644402135,
  877775757789092743512816975502070,
  877775767789096315512797189502029,
  877775777789092257992822484602035,
  877775787789095376192830970302021,
  877775807789095285902802666902011,
  877783657789093145332815407502090,
  878068668476080701343052857102096,
  878068768476081451593055165302025,
  878069678476081523523063923203777,
  878266677368086587792959870202003,
  878266777368089059402948916202108,
  878266797368086623982925344102003,
  878266837368087506492929689102050,
  878266847368086568972956640502068,
  878266857368088332652948980802088,
  878266877368088530892930804502150,
  878275657368080924833049011503029,
  878275667368081186443009997506432,
  878275697368081150563016531102049,
  878275737368081468693007464504317,
  878275767368081726243029981002001,
  878275797368081519582998881902066,
  878275847368081862373045935502328,
  878276657368090381152975417902045,
  878276677368090118672974742002057,
  878276687368091406102984828402027,
  878276697368089744592965946202087,
  878276707368094139302976641102053,
  878276727368088130962962152902044]

/-- Rows 11601 to 11800. -/
def rows58 : List ℕ := [
  878276737368090807342945291402495,
  878276747368090557692976423602033,
  878276757368092149312974307402059,
  878276777368093571672966161202019,
  878276797368089797102956339402551,
  878276807368091709872949695904134,
  878276847368089906042974330902121,
  878276857368090988122979416402059,
  878276877368091121972968483302192,
  878282837368081516022974079402016,
  878282847368080591622992364102161,
  878282857368081014062972146902038,
  878283677368082804562915439002138,
  878283847368082978032938875702008,
  878365678371091332702840042202001,
  878365717789091417492838036802086,
  878365808371091344642839028602065,
  878365847789091399642837097902050,
  878383767789091410412838633702036,
  878383838371091331332840040002022,
  878776686585057117063316579802020,
  886665687166141546721776882002495,
  886673687166142136141781461902135,
  886682697166143802861790803902020,
  886682797166147251421741664302023,
  886772657166145704821776132802350,
  886772737166142949771769533202448,
  886785827166144930481781473602800,
  886865867166140640501753701702969,
  886866776869142074561916217202268,
  886879827166147868921759693202003,
  887265787166142297301775274902645,
  887273787166142026161787861402505,
  887365668285141405652898821704598,
  887365688285141920972931044204283,
  887365718285140393512963303104191,
  887365738285142083232934211404129,
  887365838285141016812954107604083,
  887365848285142110112934963404329,
  887373688285140670322861247603889,
  887373798285142547252844522303482,
  887385878285141848132877205203689,
  887669687166142000321775201502250,
  887673847166142240071796273902225,
  887785767166145028221734041802033,
  888076797166147332801743257002080,
  888079757166143931231792056702087,
  888365677166142264151795059002250,
  888366897166142826531792758102480,
  888384827166146325021762482502120,
  888566838285144823882120046702000,
  888876898583154381920184709802000,
  896565766585073556493108734302322,
  896566656585055059832978044302233,
  896566706585068327293252632002733,
  896566716585062664863272649002881,
  896566736585072393113231806302547,
  896566766585066652053147281803866,
  896566836585062717043003824803673,
  896566856585066663203131693404067,
  896567686585065726793254854002989,
  896567736585064794003286683203129,
  896567836585058579003219021102617,
  896568656585064099953245637502812,
  896568686585058190803059163802400,
  896568696585068054953282782302853,
  896568716585054714293184912102108,
  896568726585066598162970776502773,
  896568766585074473823031548902002,
  896568776585068721173269841702608,
  896568786585064971433122695403724,
  896568796585064595793152880002553,
  896568826585063338553301947503002,
  896568836585063457373192649402104,
  896568856585058350073300390503725,
  896568896585054001363288027505350,
  896571686585071484443198786602090,
  896571786585077859903221455802157,
  896572686585066621522970203102773,
  896575716585062056663147413802466,
  896576656585062674203136279003076,
  896576676585067201693143984804002,
  896576686585070709403160754302710,
  896576716585071302763185231502432,
  896576726585065293283242890702759,
  896576776585065738443144016003265,
  896576786585059626373226109602424,
  896576806585069020573178302602656,
  896576826585067353463133445104185,
  896576846585054630093168594202284,
  896576886585070933953167138702778,
  896576896585067507193196630202738,
  896577666585062365233327124602087,
  896577676585067044963252441202760,
  896577746585068350153152267903286,
  896577756585059566753171367102250,
  896577766585072044103197556902000,
  896577776585068255653152427703299,
  896577786585057466783176927502158,
  896577846585063907653111989404279,
  896578686585068326053209824602820,
  896578716585066858922987014804346,
  896578746585063822823102113904188,
  896578756585061099613161697302312,
  896578766585071982073155349202732,
  896578786585068162293131241707807,
  896578796585065260553237231102653,
  896578826585077119103116858102061,
  896578876585068807153164482102902,
  896579826585068354443191918002956,
  896580656585070733273015029402056,
  896580726585066340473265814303255,
  896580756585076919993110311702392,
  896580796585051214953236410402000,
  896582656585052691873229853803006,
  896582676585076559303229276302348,
  896582686585068327553166747002906,
  896582716585073354543084463702522,
  896582736585070479043213553502278,
  896582756585059590713193437602797,
  896582776585059467053316089905556,
  896582786585065911073122665404123,
  896582806585067716533157236903273,
  896582836585055556813178855202317,
  896582896585063304073210420902334,
  896583706585060682463310506602000,
  896583846585065380763297492002397,
  896584766585066724163163424302961,
  896584786585072749203255086104450,
  896584806585055642903221694202180,
  896584856585065959053284017902673,
  896584896585061771652990176003578,
  896585656585064243913265872203337,
  896585666585064059903306095802973,
  896585716585055676022951545902109,
  896585826585076651643217177902020,
  896585836585069512543177644002674,
  896585846585066849443251982402778,
  896585866585074315453100079802072,
  896586686585069967533175180602794,
  896586696585051963723244914602032,
  896586776585053435553245863502449,
  896586786585053997003267407002000,
  896587846585065802383318891502030,
  896589696585064821913109667103625,
  896589826585070404943273162802041,
  896665656585077176173128129802129,
  896665666585065810103298208702348,
  896665686585059048083290836402990,
  896665706585062429683329971702062,
  896665726585074742053155101502026,
  896665756585054668323194289402042,
  896665766585057657153036101902571,
  896665786585073254303059006403330,
  896665826585066427213252998902877,
  896665836585066198993138933803789,
  896665856585079852183221710002045,
  896665876585069510403184714302808,
  896665896585076855213158137202079,
  896666656585059612163305955303672,
  896666676585069048373001592602704,
  896666696585062668142976656903197,
  896666726585073515683192818502019,
  896666766585062586842958363202842,
  896666786585062596693331179502012,
  896666796585059587973154768102515,
  896666836585076624383114923202399,
  896666846585053863523237165602294,
  896667656585074233543100465802102,
  896667666585059182572978636403120,
  896667706585066678753245855902697,
  896667716585061835883335063902020,
  896667756585065564933254210802928,
  896667776585062612093324622202314,
  896667826585076948563110243302361,
  896667836585073134173257435602010,
  896667866585063592073262575703003,
  896667886585062657113334243702026,
  896668686585065188023230060202484,
  896668706585072720413074652803749,
  896668716585053267063243291102705,
  896668736585049677883278794002041,
  896668776585058196643281611102704,
  896668806585048977653274118802054,
  896668836585059717143145323902602,
  896668856585071619693094466503217,
  896668866585064114813193405102157,
  896668886585067137002949576702295,
  896669656585069694213221988902440,
  896669666585072456643082989102805,
  896669676585059529742978797603300,
  896669696585059803313195531302381,
  896669706585052554543232507903180,
  896669716585070344683262861003015,
  896669766585047631393270196903189,
  896669796585064302633207331602248,
  896669836585075413613131132102489,
  896669846585060084093297849102731,
  896669866585057878442969474002747,
  896669876585058087333246469002546]

/-- Rows 11801 to 12000. -/
def rows59 : List ℕ := [
  896669896585068376543241737402843,
  896670666585048739813248837702833,
  896670776585056247003023556202332,
  896670846585052507613234259503174,
  896671666585072982633026407002118,
  896671686585067459472972653503856,
  896671696585056173552951006002380,
  896671726585073721613157168602326,
  896671736585058847693056498902528,
  896671796585069853373079723103440,
  896671806585053950203267115002519,
  896671826585053380543239469902500,
  896671846585064638943237857602685,
  896671896585060502863301933102785,
  896672666585046579803261600502014,
  896672736585057990973214609102958,
  896672756585068743933197146703265,
  896672776585069648863289465502014,
  896673656585060187153305274102950,
  896673676585076222563161962402063,
  896673686585055692493293594504500,
  896673696585065659513194560202300,
  896673716585074361393163547102011,
  896673736585073283053157382802254,
  896673756585060082963161887902393,
  896673766585070437753076633702997,
  896673786585064475393320421002388,
  896673826585053999593229139002341,
  896673856585059404662967752102950,
  896673896585077183873164683702052,
  896673906585075266333241197102063,
  896674806585076782803163902602042,
  896674876585062319383016156103458,
  896675656585067353163300854002075,
  896675686585072968443239223702682,
  896675696585059958063259554502352,
  896675766585077042423165966902046,
  896675776585067616922973644003921,
  896675836585070299733158103202761,
  896675846585072244823195309702021,
  896675856585063559723305159803103,
  896675876585070784773203550802265,
  896676656585053448053260067502569,
  896676666585063183322946110702444,
  896676676585059462063193325602474,
  896676686585058177402967943702558,
  896676716585061020733208560902313,
  896676726585062989803229576402497,
  896676736585059672643324567706042,
  896676766585061948483274813802603,
  896676776585058884083187235703972,
  896676786585056305082953977702055,
  896676806585070807623264930202116,
  896676836585059540723306461403793,
  896676846585052494743237872503433,
  896676856585062377483005931703552,
  896676866585058207142960155902077,
  896676876585068383843266377102687,
  896677656585069345503194857003121,
  896677686585074129033253259502057,
  896677696585055859243273252902812,
  896677736585061277023295959702613,
  896677756585068836803291774902018,
  896677776585053745373246267202347,
  896677826585055742663204574102104,
  896677846585072651963260149202035,
  896677896585075481983128780102706,
  896678656585061164273335518502006,
  896678676585061504833009542203309,
  896678686585063493173293970203053,
  896678736585076804933162230802007,
  896678776585072081793168908702919,
  896678806585072662033255653304549,
  896678836585052116713275655002165,
  896678896585071131183144887302773,
  896679656585061979353326717402320,
  896679666585058792783003137203366,
  896679676585057115903183664503500,
  896679696585067731203013776803453,
  896679716585059266453300368102802,
  896679738071080767753222148102010,
  896679756585062591903317314403335,
  896679766585061381863303389002733,
  896679776585053095383291802304297,
  896679786585058704952962664503018,
  896679796585058659872961802802939,
  896679806585056107722964495902820,
  896679826585053733913207220102265,
  896679836585071888133056355902381,
  896679846585062728033268946802875,
  896679856585067092493198975602542,
  896679866585058351743090102302315,
  896679896585062244682999005103715,
  896680736585069199973292767902037,
  896680756585047838303264939104216,
  896680786585069508863285441202082,
  896682656585053038013276952804308,
  896682676585068461683138664403722,
  896682686585074655333102743002093,
  896682696585077915633168073702027,
  896682736585055707623206108302062,
  896682746585059846213289714502544,
  896682756585066617583304651902034,
  896682766585073918943163003802054,
  896682776585072054323022156802056,
  896682786585055380523235778002210,
  896682796585058109932981055302947,
  896682836585051740713244273102050,
  896682846585058037503190988502985,
  896682856585071369313159388402692,
  896682876585060019253268101402414,
  896682896585067327822991569604002,
  896683716585077384163220762602145,
  896683786585073352383158436902215,
  896683806585066476293138527604398,
  896683836585052260293244188102520,
  896683846585056282913275038702681,
  896683856585063405633330943102014,
  896684676585065818303228813502654,
  896684686585066649193215560702378,
  896684716585062867853333611302020,
  896684726585056599223296507004435,
  896684736585078240943106124002066,
  896684756585072916753195652202043,
  896684766585070741683267647302018,
  896684786585059476313126713102512,
  896684806585070570953258463703014,
  896684826585066403833288068002657,
  896684856585071291923140737103073,
  896684866585077340393226709902282,
  896685686585065103493323170602106,
  896685716585061516672997457903438,
  896685726585067930113197474302833,
  896685766585059819343149056402531,
  896685786585056619492956726602052,
  896685796585061478203229571702336,
  896685826585077691873159583802093,
  896685846585058237153294197403388,
  896685896585053867813291372104584,
  896686656585055911703183364402160,
  896686696585073488103241789902591,
  896686766585058416863301749803405,
  896686896585074527153097601302026,
  896687716585062633623010242903645,
  896687736585069399503270948702533,
  896687776585073119413234796402466,
  896687786585069976683282090802025,
  896687796585067538243249940502767,
  896687806585077326783219161202063,
  896687826585072616343241735903037,
  896687846585071927573182701002314,
  896687886585069131022954025602026,
  896688726585052153723217238802483,
  896689656585064486002988020903751,
  896689686585067829822999285103650,
  896689736585046767733273781502050,
  896689766585060788143326132302398,
  896689776585077312903166271802040,
  896689786585073432003251518203169,
  896689796585062772503316113203357,
  896689826585059345303263895702525,
  896689836585073271963054375503260,
  896689876585064579523256106303259,
  896765666585062922353329798802079,
  896765676585072396433115456202636,
  896765696585048025183275293502708,
  896765716585057715263054726602287,
  896765726585058226183296095603654,
  896765736585059878843005635203610,
  896765746585071307803058846702523,
  896765766585052865793241582302965,
  896765776585068105953209133602833,
  896765786585077649423129459002045,
  896765826585065113312936639402013,
  896765836585061120443330557002085,
  896765876585055171023305760502164,
  896766656585058458443257872502724,
  896766666585058664553292700204117,
  896766676585059666733284657602466,
  896766696585070525893209259902226,
  896766716585047172213274710102066,
  896766766585072013373041535402186,
  896766786585049610013280088502152,
  896766806585060955653147142902739,
  896766826585060481643285783802500,
  896766836585059052373263110402578,
  896766846585058473993258130802773,
  896766896585073788663254296502042,
  896767656585063231873306142803028,
  896767706585073316903157288002256,
  896767756585069368603155858303125,
  896767826585076996093111291502175,
  896767848071079950633230679002010,
  896767896585069339813204994702616,
  896768666585058943143158628102520,
  896768696585051681373230575302460,
  896768726585062088023140595402941,
  896768796585056929803272106402650,
  896768826585063195273331027502037,
  896768836585064748603323308902157]

/-- Rows 12001 to 12200. -/
def rows60 : List ℕ := [
  896768846585068027073186026102572,
  896768856585057872173136978902077,
  896768866585064890123268263503774,
  896769686585065420443301970902750,
  896769696585056289753164992102589,
  896769766585066900603280053402827,
  896769776585052267673254087402301,
  896769836585051850383242615903058,
  896770686585072975253113248702420,
  896770696585068288253233781002853,
  896770726585062988913188972702098,
  896770766585075032623253080002046,
  896770786585062071463318439203450,
  896770836585059661623331065302018,
  896771656585062061073331180002202,
  896771736585064208883029420903500,
  896771766585065317613271528103326,
  896771796585072866593245283903110,
  896771826585060133873135703402612,
  896772656585069566683238492003159,
  896772666585061571273320848204199,
  896772696585061048422995654203502,
  896772736585076715003163527202101,
  896772766585053713853233351102458,
  896772806585058447662956522802110,
  896772816585068395013276062002795,
  896772836585070355803241387704819,
  896772846585069952463262663702955,
  896772896585057571663300739802944,
  896773716585057662062978210303116,
  896773736585067760393302974102030,
  896773766585074500733085300702048,
  896773786585072424373038150902300,
  896773806585071436403250000703871,
  896774856585071315233247519003678,
  896775686585049478943281190002185,
  896775736585078842783124773502049,
  896775786585074559253251755902026,
  896775896585057953613060842402290,
  896776696585052764843204420902125,
  896776726585070188673201629902417,
  896776736585063661983225781402480,
  896776776585060548523287240202484,
  896776796585056400173253161202354,
  896776816585073603383029276802055,
  896776826585065751133252263602837,
  896776836585062519123313809703177,
  896776876585068498593109568403614,
  896776896585055203343258475202390,
  896777656585065773973222702102551,
  896777676585066658303298729602191,
  896777686585058766113183807702373,
  896777726585058337083327385702007,
  896777756585071141403254710703458,
  896777776585055750493157123902207,
  896777846585067233143276165002908,
  896777856585061973313256196002630,
  896777876585070089553181206903300,
  896778656585066866543234388702765,
  896778706585068330583015872902992,
  896778716585053178033202737002077,
  896778726585060317362958862802903,
  896778756585057210273313392602214,
  896778776585059013743283693002604,
  896778786585058976103031519003148,
  896778796585054676773251029902304,
  896778806585076856623101415002095,
  896778816585052725613208122902192,
  896778826585052492183291684102361,
  896778876585069029513273900202950,
  896778896585071246293187049102416,
  896779686585063260403206356102240,
  896779696585076239333231122502532,
  896779706585055410933155091002020,
  896779716585069316152996613902266,
  896779726585054177013242121402270,
  896779736585056641002961963702779,
  896779766585053393003216945902531,
  896779776585053709583289751205106,
  896779796585077096873125254602043,
  896779826585054016903263464202469,
  896779836585062008793029033003663,
  896779846585070475863263411703053,
  896779876585071028983205245902156,
  896779896585066876832937821902004,
  896780676585066507123312353002002,
  896780686585078694163118293702103,
  896780726585062050383143294802748,
  896780736585063369873250109402870,
  896780786585071287433243097303586,
  896780876585076163253214851702036,
  896780886585077418803113092602046,
  896782656585059540153277037502435,
  896782666585058106383122942602024,
  896782716585053814713278788902962,
  896782756585071126083059257402537,
  896782766585055501393294554104942,
  896782786585048841353270132902345,
  896782806585069400433202419102693,
  896782836585065766333284717502741,
  896782846585057600073185174903386,
  896782896585071782363222474902350,
  896783656585066340992951440602685,
  896783666585063914152952140902656,
  896783676585062653042951693502850,
  896783686585068560252959437402153,
  896783696585067535402952445802186,
  896783706585065161352952826502537,
  896783736585068745183230125202770,
  896783756585023712032907380603179,
  896783766585065354383284727702786,
  896783776585067105383245836002734,
  896783806585064669633117536403617,
  896783866585069398363278471202591,
  896783876585070578733265408603836,
  896784676585067184883025801403250,
  896784726585068033233203035602844,
  896784736585073905953036080702365,
  896784776585055382953280356703110,
  896784786585052392573213610502503,
  896784806585076042993231765902651,
  896784836585069853433194059503195,
  896784876585061675973023968003570,
  896785656585056722773287632103576,
  896785686585064405423215019802407,
  896785696585062542072979104803453,
  896785776585066426953249218902924,
  896785786585058372752972113502699,
  896785836585055788663156344402197,
  896785876585064846983213504802324,
  896786686585054839043282161102790,
  896786716585055304973185791602046,
  896786726585072795753173500802535,
  896786756585066688833185848802489,
  896786776585058160552959693602087,
  896786836585059510812950870302010,
  896787656585067032452988038004300,
  896787676585077341073117113702031,
  896787686585072053423159056402723,
  896787696585078997143167593302032,
  896787716585073201813256895302044,
  896787726585060048013141517702604,
  896787736585062296133183263302052,
  896787766585056336523168874502127,
  896787786585063534903233695102500,
  896787796585052163333227179002630,
  896787826585056160873286448602966,
  896787876585056463843286649603073,
  896788656585064027723330031302034,
  896788826585074135083145567102683,
  896789696585070105033088660103372,
  896789726585072003713047139602317,
  896789846585072624463244500203405,
  896789866585075933333229833302650,
  896865716585072060103235903703004,
  896865746585068300413195294303095,
  896865766585055432913261831602460,
  896865826585047426733280677902060,
  896865896585062845863312591403137,
  896866716585069750003273000002209,
  896866736585061407723282156102567,
  896866826585073953493223894402164,
  896866896585072631153036534502024,
  896868706585073945773230087902305,
  896868806585062676293270118402818,
  896868896585076145103112035702152,
  896869656585076332003142865602471,
  896869716585052933433289403804543,
  896869756585055054912973907002230,
  896869766585048482543266321302927,
  896869786585057626513306126802402,
  896869866585068786243202317802920,
  896871656585062172172973086903454,
  896871736585061862493208783902292,
  896871786585074611533062984503276,
  896871826585062204282969901903422,
  896871846585064721732961998302965,
  896871896585069816872991991602055,
  896872656585077453163167392302008,
  896872736585077749743150928602064,
  896872746585077111613154623702329,
  896872806585076947333161656102049,
  896873736585077372433103681502020,
  896873776585072874623250931203551,
  896873886585074881193233102802574,
  896875736585072064013261394202020,
  896876676585063357873297247203059,
  896876686585067542753148813903637,
  896876716585065120113277879504525,
  896876726585063571793155055802381,
  896876756585060991983184805602112,
  896876766585053151543236947102718,
  896876796585062131973012638003472,
  896876816585054438953249402902316,
  896876846585073007853213164402050,
  896876866585077452823106825302112,
  896876876585073742613133770602692,
  896877696585059599012998231803652,
  896877706585060328602992913203449,
  896877716585072066753188077702153]

/-- Rows 12201 to 12400. -/
def rows61 : List ℕ := [
  896877786585076252653106893602047,
  896877826585074378403116409002732,
  896878656585047237203265562102935,
  896878666585067937593262363402838,
  896878738071080421653237766402220,
  896878756585057117593235765402272,
  896878866585061912663243654402498,
  896879676585057346483312083202185,
  896879686585053640333230046202409,
  896879786585058828322970423803021,
  896879796585071286733205505502123,
  896879806585070400203268384002250,
  896879826585073451663218187402090,
  896879846585070375173262923302966,
  896880686585065851363211085502312,
  896880796585048830273264191102033,
  896880826585067385713151957203575,
  896880846585058425733051848102488,
  896880876585065700723141378003444,
  896882656585060707512949272702023,
  896882676585064732772958671102801,
  896882686585074282463063761203204,
  896882696585067097033239771702731,
  896882716585066254083296611502452,
  896882726585062921553218974702380,
  896882736585064311823202225902190,
  896882766585063566743132598203355,
  896882866585071219023246896403674,
  896884896585072493563254128605222,
  896885756585062018633022864203581,
  896885776585056677032977388802891,
  896885786585062484643334261202250,
  896885806585077331743153711202231,
  896886696585057724792965328302991,
  896886826585065140603091143203942,
  896887706585074253203119125302730,
  896887716585057303152960701602912,
  896887806585073305323030721802016,
  896887856585059805922966499203076,
  896889686585067929753153355803332,
  896889836585067383293283590602670,
  896966866585056109102950381102321,
  896967726585053842373247585302323,
  896967766585058292423088657402026,
  896967846585058303883088212602016,
  896968656585061264713185882202043,
  896968696585052975523212662802518,
  896968776585066226302960936903110,
  896969666585060162032952423402268,
  896969836585057401113313381802115,
  896971656585060685723258523302457,
  896971706585068516953276929202860,
  896971836585067997533269153702670,
  896973786585071490173240944803489,
  896976656585072079403048237102441,
  896976676585064699583332211702004,
  896976686585077981933155681502101,
  896976696585063635312980346103422,
  896976736585072440953048306202362,
  896976756585068832243154396003188,
  896976766585072478523135258502722,
  896976776585053504713246398402436,
  896976786585056355003148985002020,
  896976826585074882873250880302117,
  896977676585069064953000799202641,
  896977716585063288283232607302545,
  896977746585061367173122031402841,
  896977766585066427933281710302623,
  896977776585062017813005020903681,
  896977806585066748263308139602044,
  896977856585076845943148475002210,
  896980656585061269083200399602095,
  896980666585060438373199366702020,
  896980676585059647823196561302148,
  896980686585058814623193800102195,
  896980696585058024103192082402677,
  896980766585061696463212271702395,
  896980826585069558463152486003020,
  896981796585074005013079699302331,
  896982656585064497562971706303435,
  896982726585064387023015769703693,
  896982736585054932583276821602652,
  896982766585064794343132478303378,
  896982786585063731683121713104319,
  896982796585064444532966571903305,
  896982836585069418683210837702403,
  896982856585058570743194278002235,
  896982896585060034513264343102378,
  896983676585072278943194151602050,
  896983686585064644083311070102880,
  896983696585069034333209979302642,
  896983786585058168913313060503691,
  896983806585056319803018158102470,
  896985656585053251653255103302583,
  896985686585065558062956032202771,
  896985716585064483943331250002005,
  896985756585070130113214824702328,
  896985766585063378923282278203206,
  896985796585061827053250363902500,
  896986656585072003293148616702705,
  896986686585060905743334202602020,
  896986776585066962353237113802687,
  896986806585062963463126813803588,
  896986866585075736343128257602754,
  896987796585059765383275140702423,
  896988776585067952222941000202002,
  896989686585061795533144883902604,
  897066836585056638293279210502760,
  897067786585069513083205779102539,
  897067856585068713272961291102159,
  897068706585067709952994342103565,
  897068786585054985243273724502710,
  897070846585056156313187749003342,
  897073766585054339373255577102375,
  897076736585049905573279931302033,
  897076796585071701783084498903215,
  897076826585075544343116867602227,
  897076836585056266883145003702041,
  897076846585074223893240538302614,
  897077656585048413623279722202800,
  897078696585064409673145811402915,
  897079786585047644693275937103260,
  897079826585064661932983708003667,
  897079836585071850003057833302413,
  897082686585058779843197792802139,
  897082716585063219543120181403732,
  897082726585062392223323704302333,
  897082736585048002333282517502079,
  897082756585055575712970168202800,
  897082836585064063753278673403318,
  897082846585059167333081128302510,
  897082866585074839353078365302020,
  897083656585071414273235605403378,
  897083756585052322593242163203462,
  897083826585076439433126299002294,
  897084656585057424062997026903358,
  897084676585068434663284464602755,
  897084786585060089883194747802810,
  897084906585071810843055579802368,
  897087686585067708323257976302950,
  897087896585076018403071735202382,
  897165686585057757752956832202007,
  897165736585077682653146985802122,
  897165776585073455493236626002435,
  897165786585076955833159414002077,
  897165826585066205492935284002026,
  897165836585062406803322556602460,
  897165846585062439963323438802320,
  897165876585055397943187154202165,
  897165896585064381963316150302368,
  897166736585078350793133683702062,
  897166796585052433203299080102093,
  897166836585070784173236612403906,
  897166876585054036593243779902287,
  897167826585057949523319760902383,
  897168656585060930193273808602459,
  897168686585068667363280880903086,
  897168726585059046443302405902863,
  897168736585061473033303155302714,
  897168766585059704423017781203267,
  897168786585071312233085891103139,
  897168796585054945123292548903895,
  897168826585066708573144381704185,
  897168836585071377903192324702170,
  897168846585056711683183226102705,
  897168866585069749383224361602642,
  897169696585075793333073500002383,
  897169736585053619873281795303389,
  897169766585061212332947016502121,
  897170786585060252893330319602110,
  897171696585061238562969649303185,
  897171716585057701663295546003443,
  897171736585055999563257132702374,
  897171766585075150093232698202645,
  897171796585058685393309122203496,
  897171826585059957203011376203244,
  897171836585070289833243639904525,
  897172716585071748113251250704155,
  897173666585073580173064401903669,
  897173686585062725832993913103714,
  897173706585065955822962142203056,
  897173716585058533392958532902249,
  897173766585058308653286343503050,
  897173826585067316802943693402070,
  897175766585066818003309378602085,
  897176656585066133063312169502064,
  897176666585055186803297215004141,
  897176676585058379113281932102733,
  897176686585059021833157764902512,
  897176696585065195293195997802277,
  897176716585051772223243325202118,
  897176736585060326833316795505433,
  897176786585057741743186408803605,
  897176796585067110443188182902519,
  897176826585072689303060687002874,
  897176836585064964273082865203904,
  897176886585046770613269969202664,
  897177686585077904333136764202067,
  897177716585077945923147589702097,
  897177806585052949323222642102743]

/-- Rows 12401 to 12600. -/
def rows62 : List ℕ := [
  897177876585077353373140676802251,
  897178656585069915153203587002479,
  897178706585056001773281382703114,
  897178866585071007033250100203473,
  897178876585056024882980065202907,
  897179776585058638282968867902825,
  897179786585070227383193986702878,
  897179826585074519393131726402640,
  897180656585076531103122659902349,
  897180696585067383443299452202030,
  897180736585066708802991404004397,
  897180846585078596213104220502089,
  897182756585077854713155598102048,
  897182766585052157983279965602260,
  897182786585067064853293401502341,
  897182806585064329413013620503748,
  897182836585061245113024339203451,
  897182846585053153233249315202481,
  897182856585071917253254025404115,
  897183676585064948952951981502489,
  897184656585077240173165668102050,
  897184696585076028963164500802052,
  897184726585055743523260538302439,
  897184746585077750203138009102337,
  897184786585071694963235259002995,
  897184796585048919973268330402131,
  897185666585077673723139890502113,
  897185766585061354182963047203034,
  897185776585077408203162254502050,
  897185876585072053113251638704027,
  897187656585054515463187427502104,
  897187686585064818653226886902434,
  897189776585063715423326992702260,
  897265656585066551603118462604269,
  897265666585069898853284443202036,
  897265676585076424973114159202364,
  897265696585055437193283881703432,
  897265706585055044703275313102885,
  897265716585058993293060703802579,
  897265876585058139653184677403052,
  897265896585055462583248239702305,
  897265906585062949473330509502020,
  897266656585064684383328713002060,
  897266686585066965613192357902439,
  897266756585054317443273181902875,
  897266826585073510523106247302396,
  897266896585065418003132306703401,
  897267836585071046163180625602810,
  897268686585074781163140681702213,
  897268896585068691273182954702609,
  897269676585062234183333336902010,
  897269716585072544673183425602251,
  897269766585074315353252091802460,
  897269876585066773233305959702114,
  897269896585048899023259813502539,
  897270686585073266773135007402769,
  897271826585065558373137013803457,
  897271836585059283333095150002465,
  897272896585073578283231410402323,
  897273686585079419033222887402043,
  897273766585068281482994358202957,
  897273866585073454823129029102865,
  897275736585078018473232652502049,
  897275846585067063973154437803440,
  897276676585071759093076613803346,
  897276686585069497853202384202681,
  897276776585056729562968156602847,
  897276786585071562523138779702963,
  897276836585056503903255170702403,
  897277666585066075773128025403945,
  897277686585068596513223995002605,
  897277766585052358643220619702802,
  897277846585063278413150709602568,
  897277896585067718182976645703952,
  897279656585077905643153598102034,
  897279766585075839463226740802475,
  897279786585058240503206625602419,
  897279796585071666553106352403037,
  897279846585052955493273283206260,
  897280696585056102923001609402070,
  897280786585054279423223580502256,
  897280866585074708723250990002208,
  897282686585061003753244474202600,
  897283676585076233233157980202046,
  897283766585064657972986164603667,
  897283776585053330953221706402445,
  897284656585057864013151101102623,
  897284706585054828963184913302008,
  897284766585078264773225708302418,
  897284786585072574083253959304983,
  897284826585049476383247413402100,
  897284836585067015563149174004001,
  897285716585069191723242186603043,
  897286726585069302063266442002613,
  897367696585049137473281406902108,
  897368756585063037963133151303316,
  897368826585064940033137341903188,
  897370706585067767523284287502574,
  897370766585072445783260071502046,
  897370896585071104373212083802140,
  897371776585071331753261389802049,
  897371826585060376403147847202509,
  897375766585067246733161613403160,
  897375776585073771223214289602020,
  897376656585053539453264310502500,
  897376706585066500403245143602680,
  897376876585061582423310905202933,
  897377656585064865393125659103663,
  897377666585056901443164607702764,
  897377806585064841153135716903280,
  897377846585062258533207451802268,
  897377896585074536713232833902451,
  897378716585064999913283280803067,
  897378746585064153553285461703317,
  897378786585062302043207332502178,
  897378796585060225893311708404282,
  897378866585071992333205266402075,
  897378876585072163193096387703342,
  897383686585065786883246210102724,
  897383706585065745933244206802694,
  897383866585074621533112667202741,
  897384846585053489093273593502820,
  897386766585060121053311432604666,
  897386796585057118773243103502330,
  897465666585077342493128876102084,
  897465776585064131913076780903768,
  897466796585052142553269135502317,
  897466826585063039863312320503240,
  897466896585054858333306949802200,
  897467796585047631953273353203389,
  897468656585065156863230592902476,
  897469686585064910773235488602525,
  897469776585056591313276572502714,
  897469826585054621993257206602358,
  897469896585060589283012677903348,
  897471806585056086302988977603049,
  897473666585077710623146253502059,
  897473716585066634123007586303726,
  897473786585053573713285956605375,
  897473826585077945183146147702033,
  897476676585069333633217119802404,
  897478666585059692312950534202049,
  897478756585067071943157304203274,
  897478896585073490093243873402716,
  897479726585054191283177355102070,
  897482756585072111623258185902100,
  897482796585066409503261319303152,
  897482886585061661563019868704346,
  897483826585078490643110214902029,
  897483846585056813593186143303532,
  897485756585065636403087354003510,
  897485786585063577023005675003845,
  897486776585067353553162635303165,
  897486836585067089693161179303102,
  897487666585074268583242691702536,
  897565696585059642992971187903069,
  897565746585069971333200301902509,
  897565766585075713263066294202066,
  897565786585059106383048607802636,
  897565806585055755783189125203193,
  897565826585060817262968425202350,
  897565846585056331063303169205232,
  897565896585059318913225363402598,
  897566716585059162572995269703197,
  897566766585058814853015952903057,
  897566786585061914903328399502314,
  897566796585058993473065813002559,
  897566826585062300582942592202514,
  897566836585072596823043524802196,
  897566896585057167513142871602069,
  897567656585065743613114839204067,
  897567726585058970883041804902654,
  897567756585050152313278517402100,
  897567836585065581193118116604021,
  897567896585063029143325627602382,
  897568736585056027773176541602138,
  897568766585057979853148619402499,
  897568776585073882993109474902290,
  897568786585057528902982698602986,
  897569666585058384542977132902849,
  897569766585059181303303515803018,
  897569786585063664173124705603995,
  897569806585059108483305259803150,
  897569826585054252133239341902254,
  897569896585060507373295103002600,
  897571656585059098333153050002491,
  897572656585053787383281095402966,
  897573656585072758223161777302742,
  897573666585073297783038347302172,
  897573676585067187633077260203422,
  897573686585071127643241712603620,
  897573716585053175773198675402011,
  897573736585050126573238702802131,
  897573766585073574083096132102289,
  897573786585057531343223413202221,
  897573826585072213573092098603359,
  897573856585066914563294346602478,
  897574786585074115053235067602470,
  897575716585072566983108070902646,
  897575726585058722783152355802512]

/-- Rows 12601 to 12800. -/
def rows63 : List ℕ := [
  897575786585055621382963241202406,
  897576656585074078073224315602163,
  897576666585074678173239520902317,
  897576696585073754303117435002633,
  897576716585074791833238417702279,
  897576736585073869043037762002458,
  897576766585068242123188877502725,
  897576786585074573133234976102533,
  897576806585066228463247537302820,
  897576826585062284483182607802030,
  897577666585072543743208298302018,
  897577766585070639083200470502300,
  897577786585062629473219281602327,
  897577806585058923493327583302054,
  897578656585063469103056113303587,
  897578676585076151693215870302030,
  897578716585056299522976580902950,
  897578776585063733012977880703506,
  897578806585058880012978999002929,
  897578846585066735303093720603506,
  897579746585056244022971338402907,
  897579756585060650003014833303416,
  897579766585057583053162929602675,
  897579876585074517713217468702035,
  897580716585077428213123254602114,
  897580736585073319853247831202936,
  897580786585047466903271934102683,
  897580826585075112133242158102082,
  897582696585059030263025380303167,
  897582746585073732613071859203064,
  897582756585061314972977530503167,
  897582766585064092813227975102451,
  897582866585076250503221307702120,
  897582876585067497803291352902559,
  897582896585063427573318380203492,
  897583676585054278863175228902024,
  897584726585053894153202376102096,
  897584786585052773543244476603650,
  897585666585079775513222156102014,
  897585766585064155733132863303680,
  897585806585062806843311114003089,
  897585826585069494543146688403329,
  897585846585064155543133917803647,
  897585876585051953103231472202525,
  897585896585061780323285755202635,
  897586656585074287993237416602642,
  897587716585058221023156334002686,
  897589666585053665203249660602370,
  897589786585068399443219394402666,
  897589876585067745243236104302777,
  897665666585063178033329739602102,
  897665696585076889673104943402119,
  897665716585047111403279523002009,
  897665726585071429513186328402400,
  897665756585069315823286263302175,
  897665776585063077153140517402912,
  897665786585058562833221361602445,
  897665796585054626933204575502302,
  897665806585061971463300223102874,
  897665816585069390293286533202085,
  897665876585061909983005281203600,
  897666686585073486173029181502138,
  897666716585066755293112528504031,
  897667716585056714473263693602555,
  897667756585070609093258485103095,
  897667836585053179353253459102540,
  897668666585049803983282368602043,
  897668716585049794383282314202010,
  897668766585073336943085880902356,
  897668786585064049593305429402994,
  897668796585064886182969404403212,
  897668836585067798483187045502545,
  897669656585060026272949804002014,
  897669676585059404293184240202856,
  897669686585052080333240966302787,
  897669696585055509473264395402479,
  897669716585051500883258570602263,
  897669776585047678153276165203268,
  897669796585061110883013060903217,
  897669866585077501633158012802256,
  897670686585075076843241990002098,
  897671656585067894822984677103355,
  897671666585071313343018055202097,
  897671676585056894552983826502926,
  897671686585048313703271414802522,
  897671766585067514323266643202790,
  897671786585059062663070176002598,
  897671856585074785813094441802085,
  897672736585058463243390717402016,
  897672826585077217723232986002077,
  897672836585070811453243698703957,
  897673766585052301463253664402237,
  897673776585072765873098772903218,
  897673836585061176003332551902035,
  897673846585076570473104945902057,
  897674786585057676843005457003000,
  897674896585053625753286001505154,
  897675686585071098753249867803429,
  897675696585052147953279485802198,
  897675786585069024073179146102636,
  897675836585058289213327244502001,
  897676656585060205933133455102600,
  897676676585064495963139963203132,
  897676696585062588123218035902385,
  897676766585055543793185249702145,
  897676846585055482473184249502055,
  897677656585076754003158430002039,
  897677666585058894743299386903010,
  897677826585053621653210808502413,
  897677856585056256753230010002279,
  897678686585074164973248471002905,
  897678826585065070072969618803331,
  897679676585069253443009843202589,
  897679686585053188513254631002619,
  897679726585059469133251226902350,
  897679756585056454823156864702384,
  897679796585067307402962324902520,
  897679826585071020373198989402200,
  897679856585071287823067041502822,
  897679866585072951793213721502057,
  897679886585055531313206633302125,
  897680836585048899753251830702600,
  897682656585074443943244486302327,
  897682686585060549513279696602539,
  897682696585066562363242724402627,
  897682716585063771433015510803657,
  897682786585070994983198951202208,
  897682836585074819353243413202151,
  897683776585052072893233422002654,
  897683846585062157343006951903631,
  897683896585062960743098978603988,
  897684726585048467083268833602554,
  897684786585061383253024210603530,
  897684846585065884353327153302006,
  897684866585051790043264700802179,
  897685676585067534043162721203083,
  897685736585053027733203427302089,
  897685766585058361453205119702344,
  897685786585066745983295544702270,
  897685876585055982942950456302278,
  897686656585075511033236750302087,
  897686686585058264993150270102459,
  897686896585057274192995039303165,
  897687896585063057313004713503640,
  897689686585063170783312251803286,
  897689726585059731143183621902482,
  897689786585066362582952343102730,
  897690736585075330183254509702070,
  897765656585080051813221944802029,
  897765676585062733193156355602354,
  897765686585058112123070189502326,
  897765698071080087123240530802329,
  897765716585054953263228600302182,
  897765736585061015403143909702659,
  897765746585077761693140626102073,
  897765756585061069813143277702551,
  897765766585059235803307235303194,
  897765806585077745363154396602101,
  897765826585075079573130449802468,
  897765856585065705582968912203273,
  897765866585051972753244694102035,
  897765876585067594473289262102426,
  897765886585075406583121842902451,
  897765896585053931923269489202539,
  897766656585072932193254172703560,
  897766686585054931573192240002180,
  897766696585058658532960115602610,
  897766766585068836512998248702637,
  897766786585077148153115723702082,
  897766796585066692103234402702723,
  897766806585056126693026103602174,
  897766826585061736313141478802908,
  897766846585053272653271661303107,
  897766856585052967093237086202766,
  897766906585064833243126382803571,
  897767696585064909862975891103377,
  897767706585062653113315114303210,
  897767756585068714593212968702578,
  897767766585068610503273259202785,
  897767796585052396183297201002102,
  897767826585067906983179824402614,
  897767836585069984513264734702870,
  897767846585052416503203597302056,
  897767876585071797983074893403406,
  897768656585064404913313183202400,
  897768666585069485682980587002038,
  897768686585060292863182282902262,
  897768696585068336683205161803110,
  897768716585057430383296019103545,
  897768736585070264133008331402032,
  897768756585066960113146946703985,
  897768786585058479562983220703300,
  897768796585053909913249838302320,
  897768826585068006182950445102075,
  897768836585067537973152386303486,
  897768846585058178573082282502046,
  897768866585063828073091288504067,
  897768876585073779343246998603594,
  897768886585070234953203794802385,
  897768896585077113033119036902150]

/-- Rows 12801 to 13000. -/
def rows64 : List ℕ := [
  897768906585068809952959839102049,
  897769666585059820143156687902522,
  897769686585057627573224014202240,
  897769696585073184413163267002632,
  897769716585054299263193451102013,
  897769736585066024203115588704410,
  897769756585063390862985351003713,
  897769766585052379953245599302670,
  897769786585052279693249007602281,
  897769796585053034423257050703105,
  897769806585076271853224102602287,
  897769816585067263603233114802883,
  897769826585053087153298966202006,
  897769836585051893993271384502022,
  897769856585076935513224482402279,
  897769876585060736602954430503007,
  897770686585052932293261179903050,
  897771666585077907843148873502053,
  897771686585077947453142327002122,
  897771696585078062793128201702068,
  897771706585055748583220550302164,
  897771716585059768293139857102690,
  897771736585061036753290476302600,
  897771746585077348083151915402049,
  897771766585072545703211637202028,
  897771776585072180233145483402779,
  897771786585058540273171651002344,
  897771796585062626952964104403007,
  897771826585071376153068748602949,
  897771836585061215043020348303403,
  897771846585056064702950983502374,
  897771866585075218113235041602275,
  897772656585068987853193968903222,
  897772666585047170993275020702012,
  897772696585063973212973312703321,
  897772766585057890942997591203489,
  897772786585066882723247436902736,
  897772796585072953293057168102948,
  897772846585073171523049113702644,
  897772856585073555873160768402131,
  897772876585063502753222813602345,
  897773656585055773613220738602166,
  897773666585062666923132968903200,
  897773716585055548273304909803889,
  897773746585078837333125345302039,
  897773786585055263153175262002108,
  897773796585066676593306964502183,
  897773806585075205943058185303077,
  897773826585072673263218811102174,
  897773836585063611463009798403824,
  897773846585063516503279369903144,
  897773856585066732113252737402806,
  897773866585057559713160683702575,
  897773886585066093972947605702432,
  897774686585071159083049197402392,
  897774696585065364812969387803466,
  897774776585055736702961343202940,
  897775656585075075143131333102424,
  897775666585059083232982486302974,
  897775676585072910193090426102510,
  897775846585077388443110466002069,
  897775866585077520773130646902066,
  897776656585069116932980327102175,
  897776686585055613783177077902545,
  897776696585070418073252559503513,
  897776736585065096692942113502171,
  897776756585071816363250898804169,
  897776766585070147603215539202336,
  897776786585059799663232111502456,
  897776796585069989593272446402148,
  897776826585060760343179070302047,
  897776836585063189233301633602996,
  897776846585048462943272038702562,
  897776866585075938123099096902045,
  897777656585077743313136526102110,
  897777666585052028233250993002050,
  897777726585073623143239853102531,
  897777736585061287633018840903535,
  897777766585052347133248348402433,
  897777786585062144493312680403312,
  897777826585077527883124888402040,
  897777846585063087333233191302566,
  897777856585067202203286985602547,
  897777896585077460543141089902133,
  897778656585067730793122097504251,
  897778666585061767103149685402404,
  897778686585057299393314907802085,
  897778696585062716313005457403792,
  897778706585063552232965410203026,
  897778716585053104243251873202467,
  897778756585065183893205551302350,
  897778766585078450983129128402057,
  897778786585067865983120662304149,
  897778796585066628253238906402624,
  897778806585060409423190524102312,
  897778836585067420523150265603649,
  897778846585072608203062207602955,
  897778856585075950043140906402359,
  897778886585061083203017960003383,
  897778896585064643783214273402340,
  897779696585058034773158733102548,
  897779706585068795893237942402924,
  897779716585061892282978370303354,
  897779776585054936083240167102235,
  897779796585064754543209713502280,
  897779826585060493753298429902701,
  897779846585077560663226348702158,
  897779856585065397553299929902482,
  897779896585064920433228887802446,
  897780656585057167863151440102509,
  897780676585052075603247518902014,
  897780696585069480463267887602832,
  897780756585066644783129965704080,
  897780786585077952603219044902051,
  897780836585060912293261783502465,
  897781656585067197263172460502887,
  897782656585059848133116250402842,
  897782666585067948643280753602770,
  897782686585059819102992962103435,
  897782696585060332393180612502164,
  897782716585063748933319274903019,
  897782766585077162053139177502800,
  897782786585077874423138548102221,
  897782836585062069183013006903535,
  897782846585072294533251431004159,
  897782866585058990502968067402876,
  897782876585060797332960180702886,
  897782886585066498882955383802773,
  897782896585054097733301449302014,
  897783696585070484043183657302838,
  897783706585073026783105515402759,
  897783806585071864643242837003443,
  897783836585063115222959546902956,
  897783846585068373532970759403011,
  897783876585067557012960404202489,
  897783886585078067683150812302047,
  897784656585071199363170806802863,
  897784666585067410043245197502753,
  897784676585061171713143488202722,
  897784686585073946723245087003131,
  897784716585052254163207794002212,
  897784736585073339483191630102033,
  897784746585073350933117576702573,
  897784776585077923973162655002042,
  897784786585065481613300086302417,
  897784796585065113523311001602757,
  897784836585056468792999428803007,
  897784876585058534253191071102564,
  897784886585063948923152424102515,
  897784906585073593423061098703858,
  897785656585065113743319114902159,
  897785676585069340173000614802307,
  897785686585075620593123924102393,
  897785696585077901673128900002135,
  897785716585061997363186557602193,
  897785726585077839653161718202029,
  897785746585067638562986762903500,
  897785756585061655533186447502177,
  897785766585057488232958371302090,
  897785776585077639523141369202099,
  897785786585076193483144278302248,
  897785806585064138833116450704008,
  897785826585061662633334108902019,
  897785836585065591543272412203088,
  897785886585063643912973372203329,
  897785896585071366043139257402984,
  897786716585064025793132080803746,
  897786726585058529982995258703429,
  897786776585056709653312107403027,
  897786786585063598263271195203444,
  897786896585075916023138094702486,
  897787656585061521302955117302950,
  897787676585069534373274774202279,
  897787696585067264233121534203857,
  897787776585049099063281683902235,
  897787786585065613633283222302858,
  897787796585058287233164264802469,
  897787826585058042572961852102823,
  897787846585060093343197599802262,
  897787886585066638783196467702413,
  897788676585078441853105797302102,
  897789656585077338293147740902155,
  897789666585064493573327128302037,
  897789726585073039223157754102640,
  897789736585064902422997573604105,
  897789806585078406483160794302020,
  897789826585071876063042654502178,
  897789846585061411883203006102108,
  897789856585056203763019493202043,
  897789866585065354613140215403266,
  897789876585068956773146842703348,
  897789896585074950593237529302224,
  897790736585060318533010246603414,
  897865656585059323803329821902006,
  897865666585077695843133040202269,
  897865766585077461033151739802255,
  897865776585077836413140181602181,
  897865786585063307343319837003194,
  897865806585062449543211580702180,
  897865826585055306693265054602472]

/-- Rows 13001 to 13200. -/
def rows65 : List ℕ := [
  897865846585074414103154277902162,
  897865856585055974132957361902498,
  897866726585065905993231558602574,
  897866826585059672473298239402788,
  897867686585062193313225924502320,
  897867836585064323983148332202731,
  897867876585072625273133984602691,
  897868716585056898812990154603061,
  897868826585058200043122159402098,
  897868836585068910263261463002732,
  897868876585065775633276140102986,
  897869836585072707593092686202843,
  897871666585053260363251241502450,
  897871846585077438113142678402203,
  897871856585075279373147412002045,
  897872766585053690483216417002454,
  897872776585058319282966195002964,
  897872806585061655662947116302916,
  897872866585067275103111439303827,
  897873676585071954053088990203289,
  897873716585057476553164926702661,
  897875656585071515193048486902266,
  897876686585055313363196651602185,
  897876726585072386813067400003185,
  897877786585070792973257680303087,
  897877896585069415083193382103283,
  897878716585051933233255739002148,
  897878776585059829723238940002363,
  897878826585052221983230199102768,
  897878846585067465642954822902268,
  897879666585061700213333251402068,
  897879676585062280413227032602370,
  897879706585070682063183332802790,
  897879796585061957403235580202399,
  897879826585061329133263648202506,
  897880656585061513503159116702563,
  897880666585067471363127594904129,
  897880686585072683813048153602272,
  897880696585079061843224477402033,
  897880746585057420702958802602025,
  897880856585059399263188945703886,
  897881736585059101323209544602217,
  897882666585057885312984056303000,
  897882676585053011723207241602169,
  897882716585057072512970829103080,
  897882766585061443233219163402348,
  897882776585057785113282242502782,
  897882786585064315363308540902970,
  897882826585067355213105655003732,
  897882866585056198203002003902209,
  897883726585063579093330609502000,
  897883776585057784323017500902863,
  897884736585061701982935944502028,
  897884746585068485663139877103585,
  897884776585058372072966864702500,
  897884786585072319173210674002036,
  897885666585058559243109001702220,
  897885686585067579732973558804020,
  897885696585066007493154186703017,
  897885746585072031723179634302368,
  897885766585068094203001939003257,
  897885776585075735613157116202031,
  897885786585059195433224825802687,
  897885826585059700853294927302660,
  897885846585074196803141447702479,
  897886686585069398653263076402863,
  897886696585053077713230871902750,
  897887766585059163213152967002500,
  897887786585066576242997946503724,
  897887846585066770693126265203916,
  897887896585059316093281268102475,
  897889716585066959162950504902383,
  897889776585057945373263085003012,
  897889786585058445753271953002569,
  897889806585063822843102114704185,
  897965686585064630943154206902507,
  897965706585077526033149551802034,
  897965776585059428643306600303393,
  897965806585073552193030628602031,
  897965836585055911693305587602879,
  897965896585066949523284936102581,
  897966776585065471763295528502431,
  897966826585058031523325909902037,
  897967826585076791653230256102608,
  897968656585059543713118165202367,
  897968766585064633143226422702446,
  897969786585077677433130015002030,
  897971686585069597283231846102787,
  897973846585067935833241336402820,
  897975696585067702143259808402947,
  897975726585058335603170593702315,
  897975866585060499963108668102751,
  897976656585051714683236705402450,
  897976686585059512663168682902343,
  897976876585068322052951082702016,
  897976896585058992243277095702510,
  897978696585066702623250148502816,
  897979666585073231593039808702036,
  897979686585062442083154384502386,
  897979756585059384473104101102400,
  897979776585061905733201906902143,
  897979796585073670663114957902489,
  897980676585077417433117287102048,
  897980846585077673863130409302046,
  897982656585058306153065882702347,
  897982666585052209933286061402092,
  897982676585065043023333124002063,
  897982716585056622493291237705114,
  897982766585056212373029407202271,
  897982796585075184023136965402227,
  897982806585058556763187306104193,
  897982826585057213973186674603358,
  897982846585068096643160722303066,
  897982856585061383103311172402977,
  897982866585072653103089151002540,
  897982876585060799303014339203343,
  897983666585067924343205499702935,
  897983786585066175233308149202125,
  897984786585072560543246436303538,
  897985786585061386682988433003506,
  898065676585064755723325408102016,
  898065686585055041473185172002020,
  898065716585057502033177110202056,
  898065746585079298843225378902001,
  898065766585073894073247715903383,
  898065776585071248953265781702029,
  898065836585067093062986876604386,
  898065896585066762753119030604035,
  898066726585051393143228991702108,
  898066796585066824522977374903406,
  898067676767077818142768279502010,
  898067696585056624363225808202164,
  898067726585054635053221939402242,
  898067776585078244603108783102294,
  898067836585061803863004291303407,
  898068656585054200743172617902540,
  898068686585078661833125883902024,
  898068696585056339253161362702388,
  898068736585063882493194012902121,
  898068786585077590563108652802102,
  898068796585069890752995820602042,
  898068896585053393193205004402133,
  898069656585058337692960135502150,
  898069676585056933563316416902010,
  898069686585055289203186166802067,
  898069706585052485183246994903150,
  898069806585075854843100854102079,
  898070846585053775083291509104700,
  898071726585073198183112185002370,
  898071806585066593352978809303283,
  898071866585077737193168097902179,
  898072856585078307373101940402046,
  898073686585051471923253218902043,
  898073786585074306563235608502619,
  898073826585056761873179912902039,
  898073886585062818952962829103000,
  898074736585060577332962804902966,
  898074786585074029533050497302560,
  898074846585057900032958724802099,
  898075656585069286222967653002029,
  898075696585061755753158888502335,
  898075716585059211723014544603202,
  898075726585057272683282110402943,
  898075736585059598683163924002284,
  898075766585052999653250613502550,
  898075836585056862773282305903069,
  898075846585075756273095272802091,
  898075856585074226173087017302145,
  898076676585055387453158768002035,
  898076686585071516653192878302212,
  898076716585059638333289051502535,
  898076736585060554853332662302006,
  898076776585067780802940911102019,
  898076806585058039712958649702006,
  898076856585064679222994141303893,
  898077666585057949463198667602813,
  898077726585060274703155225602564,
  898077806585075108973216061002010,
  898077816585058558713328583102012,
  898078676585076176343118422102647,
  898078686585069467723253775903374,
  898078716585058073863130012202082,
  898078736585063469293028110303568,
  898078786585054748043209446502250,
  898078876585068373522963137202661,
  898079686585051680653214628402264,
  898079756585053278493268889802956,
  898079796585061532593141930402884,
  898079806585060220813022614803191,
  898080656585065182673214653002386,
  898080686585069625942986216302033,
  898080706585055196233186306402057,
  898080726585058059092959592902070,
  898080826585059366823279549302458,
  898080836585076842933227723302403,
  898082656585053690913241400902356,
  898082686585060124173314747304936,
  898082696585058536483299055403215,
  898082836585054369703184662502010,
  898083726585054241383179582302493]

/-- Rows 13201 to 13400. -/
def rows66 : List ℕ := [
  898083736585049501583283374002121,
  898084666585057000723188487103827,
  898084726585066891563236138702726,
  898084746585065389253063215003515,
  898084766585065868963245925902717,
  898084786585075487803123688402443,
  898085656585075653583098636802060,
  898085716585073278513174163302080,
  898085756585070555013264138903138,
  898085786585067948063031476702841,
  898086686585063323743225780002456,
  898086736585073995353240725502704,
  898087706585055809783181563402026,
  898087826585058864933168138702548,
  898088776788079559262856901702916,
  898089686585053943823241265202295,
  898089706585060743852976754403136,
  898168716585057995012974138402796,
  898168736585058498483305132303054,
  898176806585063391153242499302655,
  898178836585047925813255218202866,
  898182786585057669543181059402881,
  898185696585059677713231568202488,
  898265716585052079943237324002590,
  898265756585078382593102922802109,
  898265776585063860873230285002469,
  898265846585061278442937843502012,
  898265866585056470682999428402996,
  898265876585058986943053197402598,
  898266666585064152303330679402032,
  898266696585052823213198041102020,
  898266776585072811733177623402628,
  898266786585055353833306393003820,
  898266826585073287003169405002249,
  898266846585069813603100065503119,
  898266896585076359363226380602351,
  898268776585068021892990091603253,
  898268786585072878833243902103172,
  898268836585069425663233002302892,
  898268896585062878172982787403596,
  898269686585062793533330644802006,
  898269786585055799633206597602115,
  898269836585064782623232815402496,
  898272766585068028362960577902491,
  898273656585077993083164647702073,
  898273686585052518943247193003121,
  898273776585058797883279252902568,
  898273786585076868383113725202112,
  898273796585062451763323875702263,
  898273836585049307883250252702060,
  898275686585071047613151963402737,
  898275806585058325673186388703479,
  898275836585070134913181036402785,
  898276696585067117952974397003424,
  898276726585070972313187337702461,
  898276766585065543503286245302700,
  898276796585054960623191858302374,
  898277686585069299873231064602676,
  898278716585077643523148851902206,
  898278876585066171383149594003333,
  898279666585071152493237059003509,
  898279696585069228242971547302035,
  898279736585055353183227704102282,
  898279756585054077563167169302354,
  898279776585063449023287742203032,
  898279836585069680433201675902657,
  898279846585060708592968838603090,
  898279866585066404083145130503660,
  898279886585067480223188317902499,
  898282666585075269963145202002070,
  898282716585066900212993499704185,
  898282826585077663523159923702086,
  898283666585064176823196250502180,
  898283756585071216063086208603238,
  898283866585062849393259092002807,
  898283896585052610183247367003488,
  898284736585057993732955328502012,
  898284806585074357733218402802050,
  898285686585067442703021497403285,
  898285766585077090653162505602155,
  898285786585065903813308182502274,
  898285826585077808513162910302079,
  898285836585049105913279852402108,
  898286696585072098253102059003152,
  898286876585069896353269049302950,
  898287656585058969253051944202613,
  898288666585059291893167079402344,
  898289726585067378212999557403362,
  898289756585058342913186059103384,
  898289876585053467443242411702435,
  898365686585070539803217760302331,
  898365716585065949963190693202307,
  898365726585067204652996180203379,
  898365786585062028472992872403727,
  898365826585062959323152433002482,
  898366696585052470913247433502927,
  898366756585056080513309834202029,
  898366796585068425863197039303060,
  898367656585056792003211654002180,
  898367666585054709373291944403887,
  898367676585054912973186596003110,
  898367786585055959323306804702229,
  898367796585057965163308259302745,
  898367826585058766342993489803162,
  898368766585077288123223647302209,
  898368786585055432403192968502307,
  898368856585057777183285688402935,
  898368876585052266073211315202232,
  898369656585055430843193306802289,
  898369686585061312003009653803227,
  898369756585063707713284565103304,
  898369786585057602372958676302049,
  898369826585075166703249467702091,
  898369876585059847183331612802104,
  898370736585070228693010842502108,
  898370836585056280413308656302072,
  898370896585047018013272066602635,
  898371686585075209593224263502256,
  898371696585061953113285888602656,
  898371826585060291013329277002010,
  898371846585057401253311884202150,
  898371876585064325173220831302380,
  898372716585069573993001483902561,
  898372756585064111132935772102110,
  898372786585055250282964900202283,
  898372826585069726213287530302060,
  898372846585053578773253931602374,
  898372876585056006033309490802250,
  898373656585057437623167049002601,
  898373696585068496363249877003005,
  898373738071080623703226222702014,
  898375706585070418433267789602295,
  898375736585077771963167023102020,
  898375826585078135713220047402078,
  898376686585069781633224309602633,
  898376696585051828633246879102053,
  898376716585072947903052412103009,
  898376756585054470043228839602184,
  898376786585074102263233813802424,
  898376866585066443163000431403950,
  898376876585067626423294559902058,
  898377666585056629283312996302840,
  898377726585067264143306504802116,
  898377736585049161433250749202031,
  898377756585065869493304423402530,
  898377826585072139793225531502417,
  898377846585072601433248800503962,
  898377896585075121423227950002347,
  898378666585078586293106435902172,
  898378707870060963563479297402371,
  898378876585055052123305265202400,
  898379666585062329463317307903753,
  898379696585064780143287566403005,
  898379726585057812023028403803211,
  898379876585075480853220388502168,
  898380696585061380083319724804938,
  898380706585072016673244333303636,
  898380736585065869853280857003209,
  898380756585071379923245674703700,
  898380846585062073693333691502009,
  898380866585066452253207013102434,
  898380896585055335693163390102052,
  898382686585060905443024646103350,
  898382736585056398353307712602067,
  898382756585069101812976478502102,
  898382786585047849583252913202066,
  898382846585062840003290712202830,
  898383896585056070643311716002021,
  898384656585053363593231850602639,
  898384666585075523953228209902441,
  898384676585060286103170559702103,
  898384686585070656403261638403077,
  898384726585048662533282791102158,
  898384786585048967153269918402171,
  898384796585065640193232862602538,
  898384806585069643633267992002650,
  898384826585058245023203406802465,
  898384846585065884723143848803424,
  898384876585058918683308328203334,
  898385746585070734693099433003434,
  898385786585059547973309811105022,
  898385826585046711513270712602229,
  898385846585068661223279736603054,
  898386726585069404863230752802743,
  898386786585075130273229645802426,
  898386806585076023703235499702041,
  898387656585047897653280666502020,
  898387666585060949753333029402014,
  898387696585072879373195995902023,
  898387716585054832933274601502724,
  898387726585054625093235248602234,
  898387736585049270963281143002041,
  898387756585059071193330261202002,
  898387766585052921033227405202807,
  898387826585055443323195908902039,
  898388666585069989373224778702623,
  898389786585054685643189985702070,
  898465656585062830793304759703180,
  898465666585072705173069073603480,
  898465766585054599773291654404044]

/-- Rows 13401 to 13600. -/
def rows67 : List ℕ := [
  898465776585064201223298942702787,
  898465786585069428843097359503138,
  898465806585064310783272928403778,
  898465826585059297533145759902397,
  898465866585048190873277394302725,
  898466666585055643623160936002036,
  898466716585054414873282883403348,
  898466736585077794893140081402056,
  898466776585054231493278856603993,
  898466806585064414543330615102329,
  898466826585074380573104424002051,
  898466886585061844183009284903704,
  898467706585067687553020604603220,
  898467756585069217293250031903575,
  898467766585066239373234955402632,
  898467856585067320723233433502884,
  898467896585063247063133532003261,
  898468776585062881783147696802610,
  898468786585051786343254279202010,
  898468826585065019393300931102560,
  898469696585068171843208820302891,
  898469706585068289513022219602970,
  898469766585060399033294062202572,
  898469776585055574163274952402920,
  898469806585061932073218387702253,
  898469886585061165673311478302979,
  898470656585055603053193796902233,
  898470686585061007793319233704617,
  898471656585062866763333637902027,
  898471716585052648003256997302700,
  898471736585058017703280026502695,
  898471776585062018623238074802433,
  898471846585069456173103401603296,
  898471876585067535373244542302775,
  898472686585075205743064949602700,
  898472736585054973013161727902049,
  898472776585049547933249085402250,
  898472826585064858482990967003719,
  898472836585060466672958580202882,
  898472846585060016833153956102619,
  898472866585068540932950094802009,
  898472896585063904493234656302540,
  898473666585060542573220541302584,
  898473736585064413963239011702944,
  898473846585067878963134222603808,
  898473876585062337763200954702133,
  898473896585077028753165002502075,
  898474736585063996623054496403431,
  898474856585060652483071019402740,
  898475836585068967333217926702420,
  898475896585072953863082022002686,
  898476696585059678803253907602333,
  898476726585062926863323779302303,
  898476736585061944603319275803533,
  898476806585059077303244137402280,
  898476846585067368623168069602943,
  898476876585071369303202521002120,
  898477656585065351053296196702491,
  898477666585065161473262868403300,
  898477696585066589573238284802697,
  898477766585063345622937406702020,
  898477786585070038633097211903400,
  898477796585068197953199163902949,
  898477836585058680993298384303207,
  898477856585054736533282406902877,
  898477896585067744213179500702574,
  898478676585057794183324738402022,
  898478716585065507363305718002644,
  898478756585070364113141695403236,
  898478826585073543043146477402897,
  898479656585061579503208072402194,
  898479676585054197563256063202372,
  898479716585059917763295308102629,
  898479756585064868343271623703709,
  898479766585064120103280416303540,
  898479846585057738523273640602780,
  898480656585076276453110240202235,
  898481896585051708193243654602030,
  898482666585053937463245333002304,
  898482676585065924323233916802545,
  898482696585058107173325096502037,
  898482706585049368333246849202218,
  898482756585066378122986446903740,
  898482786585067921033240130202819,
  898482806585060725073046767803150,
  898482876585072637403237452202688,
  898483846585075915783063755202175,
  898484666585061616393011989503582,
  898484686585079046903227012202035,
  898484696585076022813216544502033,
  898484736585076252093061461602027,
  898484836585067044973294265602326,
  898485656585047488843278945302035,
  898485676585062524242981322903526,
  898485716585065506173292076502770,
  898485786585047890953273606902735,
  898485896585072060223259369002053,
  898487666585062459783319119904085,
  898487686585061501253294515902625,
  898487696585067167223267237902974,
  898487786585058553613288930303380,
  898489656585051728183251795002088,
  898489726585061403153335466702015,
  898489786585063785023138988803227,
  898565786585069890203076133202972,
  898566756585076122483167795202077,
  898566846585059762983191014703738,
  898567726585072330393142359802764,
  898568656585071812423246027204450,
  898568716585068410163183657802620,
  898568766585070374423186330302844,
  898576676585067965353259715202942,
  898577666585064256643136962703490,
  898577856585063512263120307503916,
  898578686585060407643266105102394,
  898578716585053733403237810402364,
  898578896585065485883196114402307,
  898579706585051780763271663702171,
  898580716585075296053145576402052,
  898580726585059920453306465604227,
  898582766585067548123177193102640,
  898583766585063834422933933202053,
  898584806585067941273147887803512,
  898584836585067770713145754603624,
  898673866585059420783157196202507,
  898676716585071326693250877503598,
  898678836585067652643108617104019,
  898682686585073598173109976802289,
  898682836585073043623219496702140,
  898683726585078862383119792602010,
  898686656585052822153223370002727,
  898686766585075268043235844002206,
  898765666585065279052973361103558,
  898765676585069362153142027803184,
  898765706585059068833307958903188,
  898765716585060292903241708902360,
  898765726585065545283241082502637,
  898765766585070225923006446902031,
  898765846585077364983230374002277,
  898765866585072610693111145402658,
  898765886585064712083075554603889,
  898766656585065880513294752502689,
  898766666585064253493280948503671,
  898766696585052144643246125202141,
  898766736585069003983143911403258,
  898766766585051710333224413602242,
  898766786585055822993308089502875,
  898766826585063881573065835303500,
  898766836585079794343228211902010,
  898766866585057865722967309302952,
  898766896585067071033244119602681,
  898767656585058474203233751002250,
  898767726585058997053315519805788,
  898767756585061851713319349303500,
  898767776585069901903091195603522,
  898768656585061525943022386103435,
  898768676585068855172986925502524,
  898768696585059414513283122102470,
  898768716585059969552993776703535,
  898768726585064585553226634702452,
  898768736585055521323173572802069,
  898768746585072578763049192202301,
  898768766585071428813208905603050,
  898768826585055061263294051404293,
  898768846585071247473248344303533,
  898768866585070331673248808103895,
  898768896585064065543329631202109,
  898769656585068102173283652302000,
  898769666585056282823288888603947,
  898769676585064460743251348603074,
  898769696585062900472961485302968,
  898769766585057543923289837203398,
  898769796585059355923193369302363,
  898769826585071869533199546002059,
  898769886585067617343048134603169,
  898771656585073675423254190902023,
  898771696585066235192945495702323,
  898771736585054849223164538002005,
  898771776585058135862969310902958,
  898771786585056686182973594702837,
  898771846585053581173262992802504,
  898771876585063882373019506103505,
  898772656585056948833175184802041,
  898772676585059150873230672102530,
  898772716585053316583252319702407,
  898772736585048414893269329102614,
  898772766585072225573156528102740,
  898773666585062028383141436702922,
  898773686585057475013303439002652,
  898773696585068876603272667302956,
  898773716585078222603165377102043,
  898773766585058709673226500802660,
  898773786585062274443326433302170,
  898773796585055783543306682802610,
  898773826585058815313162196302459,
  898773836585067533323301747102114,
  898775666585053677873224126302397,
  898775686585076130953099828002084,
  898775726585069320582971202002045,
  898775736585055812903200237402138]

/-- Rows 13601 to 13795. -/
def rows68 : List ℕ := [
  898775776585058797382973724303000,
  898775826585049379603249336002004,
  898775836585023311742914495704533,
  898775856585078370933103025602085,
  898775876585057454553310150702250,
  898776656585068724413126231703521,
  898776666585062668383140771103020,
  898776706585064829063233305302501,
  898776716585059962673281182502439,
  898776776585057211233318248702031,
  898776786585059579513194381502266,
  898776796585074713923115794402558,
  898776856585063374103002168603649,
  898777656585059369373223289902611,
  898777676585061093683163397802242,
  898777716585060759583269216002429,
  898777766585072685043182361602205,
  898777806585073339223239952002500,
  898777826585073502133237244502448,
  898777896585066140042951383502653,
  898778656585059228433147280702489,
  898778686585063714713318597803050,
  898778716585057548473212555902498,
  898778736585076302593215567202030,
  898778766585063942403089203304218,
  898778786585063885073299531702853,
  898778796585062863963013316003739,
  898778826585077639033114646502032,
  898778836585064967973236728002541,
  898779686585047828203274443302709,
  898779726585059118622967244203054,
  898779756585056227263002480902234,
  898779766585055448493307853802034,
  898779826585072778453179258002190,
  898779856585075227673110461902599,
  898779866585053372093241816502494,
  898779886585057605983039832302469,
  898780656585058861713189735702733,
  898780686585058484043186212303707,
  898780696585055050462966901802059,
  898780766585066879802945268902301,
  898782656585069523123181637102758,
  898782676585057572322988982002989,
  898782756585055046213173120502066,
  898782766585060464593305297603140,
  898782786585058266673278032502669,
  898782826585066521822937951502032,
  898782836585070676873240746804462,
  898782846585048550683255430504043,
  898782866585076402283157549602067,
  898783676585074333853126701302620,
  898783686585059289073214018502349,
  898783716585062905933324592502300,
  898783736585060419673145302402486,
  898783766585051910303269566102093,
  898783886585058680992986723703135,
  898784656585062267843141216102000,
  898784766585073370803093172202433,
  898784786585067642973230825102638,
  898784796585055913193218849402110,
  898784866585076773873222283702205,
  898785686585056965553154406002310,
  898785766585077109653163534902058,
  898786656585056756043314266902030,
  898786786585076686813228830902465,
  898787656585059740463294062302613,
  898787686585067249083244010702739,
  898787696585069702493266141502812,
  898787716585069151893006988602518,
  898787726585067932793277205502847,
  898787736585068342243012310602921,
  898787766585056062033271809702858,
  898787836585061983513330646902370,
  898787886585065878863255812603058,
  898789656585062734063259824102800,
  898789666585059442443135271302499,
  898789706585053941173232332802350,
  898789716585075383893154849102026,
  898789766585061241523310308902935,
  898789776585074495603081486402014,
  898789896585049003213257239102062,
  898878856585061833993332213102436,
  898965666585062440613005282203565,
  898965676585068622393270953002656,
  898965756585073264003253469303270,
  898965766585061651662966715503039,
  898965776585063349283252847402855,
  898965786585077714043166559302034,
  898965876585058284073218037602712,
  898965896585077787063162300802032,
  898966696585066734173290141502444,
  898967656585059493023229071602433,
  898968696585068623692988771202742,
  898968786585075693043233063602809,
  898969656585052827693253222302593,
  898969826585060526603018296003239,
  898971716585069110853079423303302,
  898973786585065347302961683102931,
  898975656585065097733240369702670,
  898975738071080249823234016402010,
  898976686585059736933229766602409,
  898976716585062576732955151202802,
  898976756585077738493160056002079,
  898976766585064552363284485203809,
  898976826585062730553000938103611,
  898977736585080102253227708202014,
  898978686585067750603117763704204,
  898978716585055739173282452403267,
  898978826585067491812947977602109,
  898979796585058200503168588802301,
  898979826585055002013176191602131,
  898982756585058141022967944702566,
  898982776585051433993267478302050,
  898982786585061848323036686303437,
  898984656585058531393118190302210,
  898985776585061441422990166203425,
  898985786585057433933195629803007,
  898987656585062054773246228802664,
  898987716585053968203260227002423,
  898989656585068718582983805702439,
  899065786585058963973035596702883,
  899072786585048111363253499402541,
  906665656778130089362965948302116,
  906672726778130844782918042405556,
  906676656778139203742998072604169,
  906683746778128293592946868102233,
  906684746778129137352973382102010,
  906689786778127755592926138804575,
  907171716778113375542933053202050,
  907172656778118200872932189302217,
  907175766778115205512900379902570,
  907178786778112599612881626002421,
  907183906778112652962938031502013,
  907267676778124525162938240202495,
  907272726778120772282941963102113,
  907472756778109934772904380302075,
  907483896778108300832893963902092,
  907580897580129227753056758702117,
  907665756778122709172889226402859,
  907668726778130160042747894105694,
  907671776778126399782747593811322,
  907674816778129869472783263607124,
  907676766778126531422836197808388,
  907688896778124438072887399003571,
  907766727778136174762806970108085,
  907766857778136669992932833805205,
  907767687778138140072946302804457,
  907768907778133582272844233506787,
  907775687778137965582716198706898,
  907777787778139665612800830506272,
  907785667778137852982867532906364,
  908074726778111983282807560903815,
  908076746778116668352802424909357,
  908080806778114979392827345408217,
  908090736778116552242818040708482,
  908090846778117314912837451708397,
  908365776778114534592981145202059,
  908367786778118853372958943902143,
  908370906778115920512996551702046,
  908372676778120222123004178002023,
  908374786778126840992972160002076,
  908378666778119834593014480402013,
  908378746778121733452988459102049,
  908379706778121789642972875702108,
  908380686778121161293017858902013,
  908381686778126280993003697002033,
  908383836778121213253013354402010,
  908387726778127176033022242602145,
  908387906778117903253008459802014,
  908389846778127391013013614302059,
  908565766778122117852600419216015,
  908566686778120570552770927816219,
  908567716778120938712843333903555,
  908567756778119705392866368603365,
  908571896778116524232867980405736,
  908576836778119297762708917013713,
  908578906778119295852743224511674,
  908585856778120563482839400803625,
  908588676778118005322821838507112,
  908589666778118787062845342003082,
  908767776778128142012655310306081,
  908769736778127992042825665507111,
  908775766778131690862661038805051,
  908783726778129541892560014406529,
  908784786778127043502598482506672,
  908787876778133902532674527304125,
  908967676778133986813056702502706,
  908972666778135612273062373102457,
  908974776778136835883104532202262,
  908977686778134513513095618102883,
  908981816778137250413039115602477,
  908984766778128967133015196602107,
  908984886778131630373034690302198,
  908989746778132881113094355102624,
  908989896778131776193034894802151]

/-- All 13795 rows. -/
def rows : List (List ℕ) := [
  rows0, rows1, rows2, rows3, rows4, rows5, rows6, rows7, rows8, rows9, rows10, rows11, rows12, rows13, rows14, rows15, rows16, rows17, rows18, rows19, rows20, rows21, rows22, rows23, rows24, rows25, rows26, rows27, rows28, rows29, rows30, rows31, rows32, rows33, rows34, rows35, rows36, rows37, rows38, rows39, rows40, rows41, rows42, rows43, rows44, rows45, rows46, rows47, rows48, rows49, rows50, rows51, rows52, rows53, rows54, rows55, rows56, rows57, rows58, rows59, rows60, rows61, rows62, rows63, rows64, rows65, rows66, rows67, rows68]

end Verif.Data.Airports
