/-!
# The loads of the shipped examples

Generated from `ghedt/examples/Atlanta_Office_Building_Loads.csv`, column "Hourly heat extraction (W)": the 8760 decimal
numbers of the file in their order, multiplied by `10 ^ 13`, so that all are whole.  The namespace `Extracted` has the
positive ones and zeros in place of the others, `Rejected` the absolute values of the negative ones and zeros in place of the
others.
-/

namespace Ghedt.Office.Extracted

/-- Atlanta_Office_Building_Loads.csv:2-745. -/
def january : List Nat :=
  [0, 0, 0, 0, 0, 0, 0, 0, 0, 0, 0, 0, 0, 0, 0, 0, 0, 0, 0, 0, 0, 0, 0, 0, 0, 0, 0, 0, 0, 0, 0, 0, 0, 0, 0, 0, 0, 0,
   0, 0, 0, 0, 0, 0, 0, 0, 0, 0, 0, 0, 0, 0, 0, 0, 889643734177778000, 1220732029822220000, 639026904222222000,
   523172963288889000, 415149882444444000, 294343039733333000, 327539204488889000, 172849824480000000,
   152887578817778000, 110178325795556000, 82173622702222200, 324092688222222000, 512789453822222000,
   557860860000000000, 589070002622222000, 595977688711111000, 0, 0, 0, 0, 0, 0, 0, 0, 412611886622222000,
   944260466444445000, 390880663733333000, 228202751377778000, 39280321022222200, 0, 132605006431111000, 0, 0, 0, 0,
   211746808488889000, 225269402626667000, 390411749955556000, 492781489066667000, 571939996177778000, 0, 0, 0, 0, 0,
   0, 0, 0, 758898850088889000, 1298855995911110000, 695446023822222000, 505676617955556000, 286040042084444000,
   97235426315555600, 146419499395556000, 0, 0, 0, 0, 233325927471111000, 444272358755555000, 571916550488889000,
   691217007688889000, 779191093822222000, 0, 0, 0, 0, 0, 0, 0, 182640158017778000, 862977193777778000,
   1411360134044440000, 825399615911111000, 646810872933333000, 510274903688889000, 355008759733333000,
   398957703555556000, 237586888355556000, 188319876151111000, 165338411902222000, 146279997546667000,
   419581117644445000, 633133244177778000, 693174722711111000, 738351634488889000, 772746460088889000, 0, 0, 0, 0, 0,
   0, 0, 0, 784539641600000000, 1336017412800000000, 1191313551688890000, 1041419401200000000, 946417469822222000,
   868841546711111000, 867760114311111000, 864298944488889000, 859296220622222000, 874415759244445000,
   939682695688889000, 0, 0, 0, 0, 0, 0, 0, 0, 0, 0, 129905821497778000, 146825989026667000, 146192076213333000,
   146772357013333000, 143711815400000000, 38976113208888900, 0, 0, 0, 0, 0, 0, 0, 0, 0, 0, 0, 0, 0, 0, 0, 0,
   88011306164444400, 127978292800000000, 132629331333333000, 135959791440000000, 684769443244444000,
   1519896089333330000, 1759804100888890000, 1261744401111110000, 997039642844445000, 732534172933333000,
   553072078044444000, 459394828088889000, 248781032515556000, 116031248955556000, 122360705742222000,
   2246539532933330, 385971722622222000, 573836166266667000, 694980040755556000, 777453182133333000,
   845293282933333000, 0, 0, 0, 0, 0, 0, 0, 69330660471111100, 994607152622222000, 1533553203111110000,
   975900423600000000, 755721959244444000, 583243748933333000, 271070848942222000, 215433056924445000, 0, 0, 0, 0,
   126742998066667000, 342620643866667000, 502411805777778000, 651881003155556000, 734113826222222000, 0, 0, 0, 0, 0,
   0, 0, 0, 868103007511111000, 1382993781200000000, 704085760177778000, 416961061911111000, 80725851413333300, 0, 0,
   0, 0, 0, 0, 74307007937777800, 164305922377778000, 296772599244444000, 466443188311111000, 606082780622222000, 0,
   0, 0, 0, 0, 0, 0, 0, 796983440977778000, 1277042713111110000, 656511526711111000, 391994333955556000,
   158411969262222000, 0, 134480368471111000, 0, 0, 0, 0, 60176877386666700, 84356709408888900, 224277943057778000,
   325306002622222000, 378469102177778000, 0, 0, 0, 0, 0, 0, 0, 0, 186657869880000000, 752331126488889000,
   255480051973333000, 116400811626667000, 18661303000000000, 0, 56455460417777800, 0, 0, 0, 0, 0, 269692242435556000,
   390347274311111000, 546316788933333000, 676399332311111000, 0, 0, 0, 0, 0, 0, 0, 205732989288889000,
   942285167155556000, 1474499374222220000, 1189033458444440000, 877264410444445000, 707204036800000000,
   493180065777778000, 418065940000000000, 352450248933333000, 317507380355556000, 298393282488889000,
   329467612400000000, 0, 0, 0, 0, 0, 0, 0, 0, 0, 0, 0, 0, 0, 0, 0, 0, 0, 0, 0, 0, 0, 0, 0, 0, 0, 0, 0, 0, 0, 0, 0, 0,
   0, 0, 0, 0, 0, 0, 0, 0, 0, 0, 0, 0, 0, 0, 0, 0, 0, 0, 0, 0, 0, 0, 0, 0, 0, 0, 0, 0, 0, 632251100133333000,
   1161622517422220000, 581473599422222000, 462592233911111000, 345949931688889000, 229002249368889000,
   234440476906667000, 86184300857777800, 64495573280000000, 32033258586666700, 9343956928444440, 231983661782222000,
   430163915466667000, 469227363866667000, 516822112311111000, 544259429733333000, 0, 0, 0, 0, 0, 0, 0, 0,
   277034259911111000, 801297447733333000, 243372991302222000, 115112177951111000, 0, 30803239133333300,
   40639877906666700, 0, 0, 0, 0, 0, 0, 91465442280000000, 150547405995556000, 197603196666667000, 0, 0, 0, 0, 0, 0,
   0, 0, 0, 168718401026667000, 0, 0, 0, 0, 0, 0, 0, 0, 0, 0, 0, 0, 0, 0, 0, 0, 0, 0, 0, 0, 0, 0, 0, 0, 0, 0, 0, 0, 0,
   0, 0, 0, 0, 0, 0, 0, 0, 0, 0, 0, 0, 0, 0, 0, 0, 0, 0, 290688442977778000, 305588178266667000, 188138758204445000,
   120871904497778000, 73787392857777800, 120949275271111000, 73331081137777800, 0, 42794829786666700,
   37482622826666700, 0, 0, 0, 0, 0, 0, 0, 0, 0, 0, 0, 0, 0, 0, 0, 0, 0, 0, 0, 0, 0, 0, 0, 0, 0, 0, 0, 0, 0, 0, 0, 0,
   0, 0, 0, 0, 162993256871111000, 737838760044445000, 1302056332444440000, 536138429244445000, 252913335182222000,
   30833132386666700, 65126262311111100, 0, 0, 0, 0, 0, 0, 23136381638222200, 78284569057777800, 265055564386667000,
   395889249022222000, 0, 0, 0, 0, 0, 0, 0, 0, 417450490666667000, 1002162525866670000, 335009587111111000,
   93574381995555600, 41238329115555600, 0, 0, 0, 0, 0, 0, 0, 0, 0, 115741694697778000, 198798047586667000, 0, 0, 0,
   0, 0, 0, 0, 0, 0, 615135747244444000, 402849687911111000, 233240057635556000, 146588601426667000, 0,
   32093045093333300, 0, 0, 0, 0, 74299388088888900, 32205584400000000, 230901057097778000, 384154681733333000,
   474904151288889000, 0, 0, 0, 0, 0, 0, 0, 0, 720770298533333000, 1334622394311110000, 639560293644445000,
   439747340800000000, 226376918355556000, 64788351320000000, 137070530951111000, 0, 0, 0, 0, 132587129093333000,
   360703131422222000, 469877981733333000, 609520504755556000, 716629203733333000, 0, 0, 0, 0, 0, 0, 0,
   205518168164444000, 933985393288889000, 1482708296044440000, 770114681511111000, 521115604088889000,
   258510993404444000, 91334146422222200, 139047295595556000, 0, 0, 0, 0, 3404226105333330, 276925530528889000,
   378776826844444000, 533755761111111000, 643551922177778000, 0, 0, 0, 0, 0, 0, 0, 102096303764444000,
   805813673555556000, 1346427298666670000, 1009676869155560000, 675130334400000000, 377033053733333000,
   235473552573333000, 253419468991111000, 49295147031111100, 0, 0, 0, 0, 0, 0, 0, 0, 0, 0, 0, 0, 0, 0, 0, 0, 0, 0, 0,
   0, 0, 0, 0, 0, 0, 0, 0, 0, 0, 0, 0, 0, 0, 0, 0, 0, 0, 0, 0, 0, 88754241431111100, 718833098488889000,
   162280214857778000, 42170588320000000, 0, 0, 0, 0, 0, 0, 0, 0, 0, 0, 0, 0, 0, 0, 0, 0, 0, 0, 0, 0, 0,
   109924233142222000, 0, 0, 0, 0, 0, 0, 0, 0, 0, 0, 0, 0, 0, 0, 0, 0]

/-- Atlanta_Office_Building_Loads.csv:746-1417. -/
def february : List Nat :=
  [0, 0, 0, 0, 0, 0, 0, 467896821022222000, 404948077066667000, 63729485395555600, 56850227204444500,
   10400185212888900, 296438498177778000, 74912785924444400, 0, 0, 0, 18880813262222200, 0, 0, 0, 80615656675555600,
   0, 0, 0, 0, 0, 0, 0, 0, 95924812306666700, 837181074577778000, 303032598177778000, 162764661404445000, 0, 0,
   158287414040000000, 0, 0, 0, 0, 109776818373333000, 362030743555556000, 521549349333333000, 657909475911111000,
   762919785733333000, 0, 0, 0, 0, 0, 0, 0, 226381607493333000, 1006332927777780000, 1583504243288890000,
   876684129644445000, 591197698888889000, 337304333911111000, 79681052902222200, 226227159017778000, 0, 0, 0, 0,
   186731723800000000, 385725542888889000, 512771869555556000, 658659737955556000, 771143361111111000, 0, 0, 0, 0, 0,
   0, 0, 190587074266667000, 950450128311111000, 1458421493066670000, 1212807386977780000, 827002714888889000,
   599687968977778000, 383196339200000000, 362584647955556000, 313175789333333000, 241327354946667000,
   143171685342222000, 186700658262222000, 0, 0, 0, 0, 0, 0, 0, 0, 0, 0, 0, 0, 0, 0, 0, 0, 0, 0, 0, 0, 0, 0, 0, 0, 0,
   0, 0, 0, 0, 0, 0, 0, 0, 0, 0, 0, 147804260395556000, 902808488488889000, 1372882827866670000, 771761741155556000,
   617113977244444000, 478787343511111000, 322011883333333000, 292669310617778000, 73807614764444500, 0, 0, 0, 0,
   301936512222222000, 392559961200000000, 446572966977778000, 506139670311111000, 0, 0, 0, 0, 0, 0, 0, 0,
   435108025111111000, 984528437111111000, 425548045466667000, 293091626088889000, 201982558280000000,
   87854513120000000, 298337598977778000, 155880421004444000, 0, 68820423666666700, 54666847426666700,
   308460275155556000, 309708758088889000, 394230466533333000, 437279682044444000, 481231556577778000, 0, 0, 0, 0, 0,
   0, 0, 0, 81875569382222200, 565058686488889000, 333594053644444000, 154386930622222000, 21469774150666700, 0, 0, 0,
   0, 0, 0, 0, 21177406410222200, 98633961657777800, 329927734044444000, 469895566000000000, 0, 0, 0, 0, 0, 0, 0, 0,
   784844435555556000, 1377390261555560000, 530775227911111000, 230933587991111000, 0, 0, 0, 0, 0, 0, 0, 0, 0,
   33029700364444500, 173380576262222000, 262676413106667000, 0, 0, 0, 0, 0, 0, 0, 0, 59907838106666700,
   639249638266667000, 432271096755556000, 102715856093333000, 59242566684444400, 138209698360000000,
   153176253862222000, 0, 0, 0, 0, 220368960577778000, 177766678511111000, 273852386857778000, 293903433066667000,
   319878325644444000, 0, 0, 0, 0, 0, 0, 0, 0, 0, 293320221555556000, 327970019022222000, 332873098711111000,
   429574842533333000, 512009884666667000, 545188465155556000, 521059920577778000, 563294398400000000,
   619212366400000000, 662135561333333000, 0, 0, 0, 0, 0, 0, 0, 0, 0, 173617377720000000, 198483582284444000,
   208707367995556000, 223601828004444000, 232802795537778000, 230335722924444000, 162509982608889000,
   93593138546666700, 71628924124444500, 0, 0, 0, 0, 0, 0, 0, 0, 0, 0, 0, 0, 0, 0, 0, 0, 41059262666666700,
   72224737693333300, 680030483377778000, 1479217819111110000, 1800033972311110000, 1133311848088890000,
   766577313200000000, 467524620711111000, 148418830515555000, 183158014671111000, 0, 0, 0, 0, 111800181324445000,
   302165107688889000, 421758636000000000, 517677879955556000, 575239976888889000, 0, 0, 0, 0, 0, 0, 0, 0,
   616445775111111000, 1171510736711110000, 486119982711111000, 201346593968889000, 0, 0, 0, 0, 0, 0, 0, 0, 0, 0,
   137644364186667000, 273041459093333000, 0, 0, 0, 0, 0, 0, 0, 0, 205326206586667000, 790606213600000000,
   254118150520000000, 230627328680000000, 19794227994222200, 0, 0, 0, 0, 0, 0, 0, 0, 0, 0, 0, 0, 0, 0, 0, 0, 0, 0, 0,
   0, 188345080266667000, 89885202848888900, 0, 0, 0, 0, 0, 0, 0, 0, 0, 0, 0, 0, 0, 0, 0, 0, 0, 0, 0, 0, 0, 0, 0, 0,
   0, 0, 0, 0, 0, 0, 0, 0, 0, 0, 0, 0, 0, 0, 0, 0, 0, 0, 0, 0, 0, 0, 0, 0, 0, 0, 0, 0, 0, 0, 0, 0, 0, 0, 0, 0, 0, 0,
   0, 0, 0, 0, 0, 0, 0, 0, 0, 0, 0, 0, 0, 0, 0, 0, 0, 0, 0, 0, 0, 0, 0, 0, 0, 0, 0, 0, 0, 0, 0, 0, 0, 0, 0, 0, 0, 0,
   0, 0, 0, 0, 0, 0, 0, 0, 0, 0, 0, 0, 0, 0, 0, 0, 0, 0, 47881665062222200, 0, 0, 0, 0, 0, 0, 0, 0, 0, 0, 0, 0, 0, 0,
   0, 0, 0, 0, 0, 0, 0, 0, 0, 0, 0, 0, 0, 0, 0, 0, 0, 0, 0, 0, 0, 0, 0, 0, 0, 0, 0, 0, 0, 0, 0, 0, 0,
   232454040915556000, 0, 0, 0, 0, 0, 0, 0, 0, 0, 0, 0, 0, 0, 0, 0, 0, 0, 0, 0, 0, 0, 0, 46452357253333300,
   288015341373333000, 75124969408888900, 0, 0, 0, 0, 0, 0, 0, 0, 0, 0, 0, 0, 0, 0, 0, 0, 0, 0, 0, 0, 0, 0,
   421682437511111000, 217583612737778000, 129011075395556000, 0, 0, 0, 0, 0, 0, 0, 0, 0, 0, 0, 0, 0, 0, 0, 0, 0, 0,
   0, 0, 0, 0, 0, 0, 0, 0, 0, 0, 0, 0, 0, 0, 0, 0, 0, 0, 0, 0, 0, 0, 0, 0, 0, 0, 0, 0, 0, 0, 0, 0, 0, 0, 0, 0, 0, 0,
   0, 0, 0, 0, 0, 0, 0, 0, 0, 0, 0, 0, 0, 0, 0, 0, 0, 0, 0, 0, 0, 0, 0, 0, 0, 0, 0, 0, 0, 0]

/-- Atlanta_Office_Building_Loads.csv:1418-2161. -/
def march : List Nat :=
  [0, 0, 0, 0, 0, 0, 0, 0, 0, 0, 0, 0, 0, 0, 0, 0, 0, 0, 0, 0, 0, 0, 0, 0, 0, 0, 0, 0, 0, 0, 0, 208483754737778000, 0,
   0, 0, 0, 0, 0, 0, 0, 0, 0, 0, 0, 0, 0, 0, 0, 0, 0, 0, 0, 0, 0, 0, 283880401066667000, 0, 0, 0, 0, 0, 0, 0, 0, 0, 0,
   0, 0, 0, 0, 0, 0, 0, 0, 0, 0, 0, 0, 0, 25697998992000000, 0, 0, 0, 0, 0, 0, 0, 0, 0, 0, 0, 0, 0, 0, 0, 0, 0, 0, 0,
   0, 0, 0, 0, 0, 0, 0, 0, 0, 0, 0, 0, 0, 0, 0, 0, 0, 0, 0, 0, 0, 0, 0, 0, 0, 0, 0, 0, 0, 0, 0, 0, 0, 0, 0, 0, 0, 0,
   0, 0, 0, 0, 0, 0, 0, 0, 0, 0, 0, 0, 0, 0, 201895223088889000, 0, 0, 0, 0, 0, 0, 0, 0, 0, 0, 0, 0, 0, 0, 0, 0, 0, 0,
   0, 0, 0, 0, 0, 80760140733333300, 0, 0, 0, 0, 0, 0, 0, 0, 0, 0, 0, 0, 0, 0, 0, 0, 0, 0, 0, 0, 0, 0, 0, 0, 0, 0, 0,
   0, 0, 0, 0, 0, 0, 0, 0, 0, 0, 0, 0, 0, 0, 0, 0, 0, 0, 0, 0, 19183028192000000, 0, 0, 0, 0, 0, 0, 0, 0, 0, 0, 0, 0,
   0, 0, 0, 0, 0, 0, 0, 0, 0, 0, 0, 0, 0, 0, 0, 0, 0, 0, 0, 0, 0, 0, 0, 0, 0, 0, 0, 0, 0, 0, 0, 0, 0, 0, 0, 0, 0, 0,
   0, 0, 0, 0, 0, 0, 0, 0, 0, 0, 0, 0, 0, 0, 0, 0, 0, 0, 0, 0, 0, 0, 0, 0, 0, 0, 0, 0, 0, 0, 0, 0, 0, 0, 0, 0, 0, 0,
   0, 0, 0, 0, 0, 0, 0, 0, 0, 0, 0, 0, 0, 0, 0, 0, 0, 0, 0, 0, 0, 0, 0, 0, 0, 0, 0, 0, 0, 0, 0, 0, 0, 0, 0, 0, 0, 0,
   0, 0, 0, 0, 0, 0, 0, 0, 0, 0, 0, 0, 0, 0, 0, 0, 15550792762222200, 0, 0, 0, 0, 0, 0, 0, 0, 0, 0, 0, 0, 0, 0, 0, 0,
   0, 0, 0, 0, 0, 0, 0, 261711036866667000, 0, 0, 0, 0, 0, 0, 0, 0, 0, 0, 0, 0, 0, 0, 0, 0, 0, 0, 0, 0, 0, 0, 0,
   382287818755556000, 351342440133333000, 153088332528889000, 107993773733333000, 0, 0, 0, 0, 0, 0, 0, 0, 0, 0, 0, 0,
   0, 0, 0, 0, 0, 0, 0, 0, 0, 0, 0, 0, 0, 0, 0, 0, 0, 0, 0, 0, 0, 0, 0, 0, 0, 0, 0, 0, 0, 0, 0, 0, 236311442880000000,
   131453530035556000, 0, 0, 0, 0, 0, 0, 0, 0, 0, 0, 0, 0, 0, 0, 0, 0, 0, 0, 0, 0, 0, 0, 0, 0, 0, 0, 0, 0, 0, 0, 0, 0,
   0, 0, 0, 0, 0, 0, 0, 0, 0, 0, 0, 0, 0, 0, 288168617564444000, 240404767088889000, 124213208235556000,
   59695361551111100, 15177068481333300, 100479137373333000, 0, 0, 0, 0, 87862426040000000, 0, 100198082177778000,
   199379207600000000, 269093498155556000, 0, 0, 0, 0, 0, 0, 0, 0, 23864018592888900, 443234887022222000,
   316809871111111000, 84469248715555600, 0, 0, 0, 0, 0, 0, 0, 0, 0, 0, 0, 0, 0, 0, 0, 0, 0, 0, 0, 0, 0, 0, 0, 0, 0,
   0, 0, 0, 0, 0, 0, 0, 0, 0, 0, 0, 0, 0, 0, 0, 0, 0, 0, 0, 0, 160030014866667000, 103221403760000000,
   124099203573333000, 0, 0, 0, 0, 0, 0, 0, 0, 0, 0, 0, 0, 0, 0, 0, 0, 0, 0, 0, 0, 0, 0, 0, 0, 0, 0, 0, 0, 0, 0, 0, 0,
   0, 0, 0, 0, 0, 0, 0, 0, 0, 0, 0, 0, 0, 0, 0, 0, 0, 0, 0, 0, 0, 0, 0, 0, 0, 0, 0, 0, 0, 0, 0, 0, 0, 0, 0, 0, 0, 0,
   0, 0, 0, 0, 0, 0, 0, 0, 0, 0, 0, 0, 0, 0, 0, 0, 0, 0, 0, 0, 0, 0, 0, 0, 0, 0, 0, 0, 0, 0, 0, 0, 0, 0, 0, 0, 0, 0,
   0, 0, 0, 0, 0, 0, 0, 0, 0, 0, 0, 0, 0, 0, 0, 0, 0, 0, 0, 0, 0, 0, 0, 0, 0, 0, 0, 0, 0, 0, 0, 0, 0, 0, 0, 0, 0, 0,
   0, 0, 0, 0, 0, 0, 0, 0, 0, 0, 0, 0, 0]

/-- Atlanta_Office_Building_Loads.csv:2162-2881. -/
def april : List Nat :=
  [0, 0, 0, 0, 0, 0, 0, 0, 0, 0, 0, 0, 0, 0, 0, 0, 0, 0, 0, 0, 0, 0, 0, 0, 0, 0, 0, 0, 0, 0, 0, 0, 0, 0, 0, 0, 0, 0,
   0, 0, 0, 0, 0, 0, 0, 0, 0, 0, 0, 0, 0, 0, 0, 0, 0, 0, 0, 0, 0, 0, 0, 0, 0, 0, 0, 0, 0, 0, 0, 0, 0, 0, 0, 0, 0, 0,
   0, 0, 0, 0, 0, 0, 0, 0, 0, 0, 0, 0, 0, 0, 0, 0, 0, 0, 0, 0, 0, 0, 0, 0, 0, 0, 0, 0, 0, 0, 0, 0, 0, 0, 0, 0, 0, 0,
   0, 0, 21241237298222200, 0, 0, 0, 0, 0, 0, 0, 0, 0, 454052141733333000, 239745650160000000, 34454905177777800, 0,
   0, 0, 0, 0, 0, 0, 0, 0, 0, 0, 0, 0, 0, 0, 0, 0, 0, 0, 0, 0, 303416521333333000, 92729751053333300, 0, 0, 0, 0, 0,
   0, 0, 0, 0, 0, 0, 0, 0, 0, 0, 0, 0, 0, 0, 0, 0, 0, 0, 0, 0, 0, 0, 0, 0, 0, 0, 0, 0, 0, 0, 0, 0, 0, 0, 0, 0, 0, 0,
   0, 0, 0, 0, 0, 0, 0, 0, 0, 0, 0, 0, 0, 0, 0, 0, 0, 0, 0, 0, 0, 0, 0, 0, 0, 0, 2806120720355560, 0, 0, 0, 0, 0, 0,
   0, 0, 0, 0, 0, 0, 0, 0, 0, 0, 0, 0, 0, 0, 0, 0, 0, 0, 0, 0, 0, 0, 0, 0, 0, 0, 0, 0, 0, 0, 0, 0, 0, 0, 0, 0, 0, 0,
   0, 0, 0, 0, 0, 0, 0, 0, 0, 0, 0, 0, 0, 0, 0, 0, 0, 0, 0, 0, 0, 0, 0, 0, 0, 0, 0, 0, 0, 0, 0, 0, 0, 0, 0, 0, 0, 0,
   0, 0, 0, 0, 0, 0, 0, 0, 0, 0, 0, 0, 0, 286188629137778, 0, 0, 0, 0, 0, 0, 0, 0, 0, 0, 0, 0, 0, 0, 0, 0, 0, 0, 0, 0,
   0, 0, 0, 0, 0, 0, 0, 0, 0, 0, 0, 0, 0, 0, 0, 0, 0, 0, 0, 0, 0, 0, 0, 0, 0, 0, 0, 0, 0, 0, 0, 0, 0, 0, 0, 0, 0, 0,
   0, 0, 0, 0, 0, 0, 0, 0, 0, 0, 0, 0, 0, 0, 0, 0, 0, 0, 0, 0, 0, 0, 0, 0, 0, 0, 0, 0, 0, 0, 0, 0, 0, 0, 0, 0, 0, 0,
   0, 0, 0, 0, 0, 0, 0, 0, 0, 0, 0, 0, 0, 0, 0, 0, 0, 0, 0, 0, 0, 0, 0, 0, 0, 0, 0, 0, 0, 0, 0, 0, 0, 0, 0, 0, 0, 0,
   0, 0, 0, 0, 0, 0, 0, 0, 0, 0, 0, 0, 0, 0, 0, 0, 0, 0, 0, 0, 0, 0, 0, 0, 0, 0, 0, 0, 0, 0, 0, 0, 0, 0, 0, 0, 0, 0,
   0, 0, 0, 0, 0, 0, 0, 0, 0, 0, 0, 0, 0, 0, 0, 0, 0, 0, 0, 0, 0, 0, 0, 0, 0, 0, 0, 0, 0, 0, 0, 0, 0, 0, 0, 0, 0, 0,
   0, 0, 0, 0, 0, 0, 0, 0, 0, 0, 0, 0, 0, 0, 0, 0, 0, 0, 0, 0, 0, 0, 0, 0, 0, 0, 0, 0, 0, 0, 0, 0, 0, 0, 0, 0, 0, 0,
   0, 0, 0, 0, 0, 0, 0, 0, 0, 0, 0, 0, 0, 0, 0, 0, 0, 0, 0, 0, 0, 0, 0, 0, 0, 0, 0, 0, 0, 0, 0, 0, 0, 0, 0, 0, 0, 0,
   0, 0, 103732226706667000, 0, 0, 0, 0, 0, 0, 0, 0, 0, 0, 0, 0, 0, 0, 0, 0, 0, 0, 0, 0, 0, 0, 0, 205900332893333000,
   0, 0, 0, 0, 0, 0, 0, 0, 0, 0, 0, 0, 0, 0, 0, 0, 0, 0, 0, 0, 0, 0, 0, 0, 0, 0, 0, 0, 0, 0, 0, 0, 0, 0, 0, 0, 0, 0,
   0, 0, 0, 0, 0, 0, 0, 0, 0, 0, 0, 0, 0, 0, 0, 0, 0, 0, 0, 0, 0, 0, 0, 0, 0, 0, 0, 0, 0, 0, 0, 0, 0, 0, 0, 0, 0, 0,
   0, 0, 0, 0, 0, 0, 0, 0, 0, 0, 0, 0, 0]

/-- Atlanta_Office_Building_Loads.csv:2882-3625. -/
def may : List Nat :=
  [0, 0, 0, 0, 0, 0, 0, 0, 0, 0, 0, 0, 0, 0, 0, 0, 0, 0, 0, 0, 0, 0, 0, 0, 0, 0, 0, 0, 0, 0, 0, 0, 0, 0, 0, 0, 0, 0,
   0, 0, 0, 0, 0, 0, 0, 0, 0, 0, 0, 0, 0, 0, 0, 0, 0, 0, 0, 0, 0, 0, 0, 0, 0, 0, 0, 0, 0, 0, 0, 0, 0, 0, 0, 0, 0, 0,
   0, 0, 0, 0, 0, 0, 0, 0, 0, 0, 0, 0, 0, 0, 0, 0, 0, 0, 0, 0, 0, 0, 0, 0, 0, 0, 0, 0, 0, 0, 0, 0, 0, 0, 0, 0, 0, 0,
   0, 0, 0, 0, 0, 0, 0, 0, 0, 0, 0, 0, 0, 0, 0, 0, 0, 0, 0, 0, 0, 0, 0, 0, 0, 0, 0, 0, 0, 0, 0, 0, 0, 0, 0, 0, 0, 0,
   0, 0, 0, 0, 0, 0, 0, 0, 0, 0, 0, 0, 0, 0, 0, 0, 0, 0, 0, 0, 0, 0, 0, 0, 0, 0, 0, 0, 0, 0, 0, 0, 0, 0, 0, 0, 0, 0,
   0, 0, 0, 0, 0, 0, 0, 0, 0, 0, 0, 0, 0, 0, 0, 0, 0, 0, 0, 0, 0, 0, 0, 0, 0, 0, 0, 0, 0, 0, 0, 3001077484888890, 0,
   0, 0, 0, 0, 0, 0, 0, 0, 0, 0, 0, 0, 0, 0, 0, 0, 0, 0, 0, 0, 0, 0, 0, 0, 0, 0, 0, 0, 0, 0, 0, 0, 0, 0, 0, 0, 0, 0,
   0, 0, 0, 0, 0, 0, 0, 0, 873199514133333, 0, 0, 0, 0, 0, 0, 0, 0, 0, 0, 0, 0, 0, 0, 0, 0, 0, 0, 0, 0, 0, 0, 0, 0, 0,
   0, 0, 0, 0, 0, 0, 0, 0, 0, 0, 0, 0, 0, 0, 0, 0, 0, 0, 0, 0, 0, 0, 0, 0, 0, 0, 0, 0, 0, 0, 0, 0, 0, 0, 0, 0, 0, 0,
   0, 0, 0, 0, 0, 0, 0, 0, 0, 0, 0, 0, 0, 0, 0, 0, 0, 0, 0, 0, 0, 0, 0, 0, 0, 0, 0, 0, 0, 0, 0, 0, 0, 0, 0, 0, 0, 0,
   0, 0, 0, 0, 0, 0, 0, 0, 0, 0, 0, 0, 0, 0, 0, 0, 0, 0, 0, 0, 0, 0, 0, 0, 0, 0, 0, 0, 0, 0, 0, 0, 0, 0, 0, 0, 0, 0,
   0, 0, 0, 0, 0, 0, 0, 0, 0, 0, 0, 0, 0, 0, 0, 0, 0, 0, 0, 0, 0, 0, 0, 0, 0, 0, 0, 0, 0, 0, 0, 0, 0, 0, 0, 0, 0, 0,
   0, 0, 0, 0, 0, 0, 0, 0, 0, 0, 0, 0, 0, 0, 0, 0, 0, 0, 0, 0, 0, 0, 0, 0, 0, 0, 0, 0, 0, 0, 0, 0, 0, 0, 0, 0, 0, 0,
   0, 0, 0, 0, 0, 0, 0, 0, 0, 0, 0, 0, 0, 0, 0, 0, 0, 0, 0, 0, 0, 0, 0, 0, 0, 0, 0, 0, 0, 0, 0, 0, 0, 0, 0, 0, 0, 0,
   0, 0, 0, 0, 0, 0, 0, 0, 0, 0, 0, 0, 0, 0, 0, 0, 0, 0, 0, 0, 0, 0, 0, 0, 0, 0, 0, 0, 0, 0, 0, 0, 0, 0, 0, 0, 0, 0,
   0, 0, 0, 0, 0, 0, 0, 0, 0, 0, 0, 0, 0, 0, 0, 0, 0, 0, 0, 0, 0, 0, 0, 0, 0, 0, 0, 0, 0, 0, 0, 0, 0, 0, 0, 0, 0, 0,
   0, 0, 0, 0, 0, 0, 0, 0, 0, 0, 0, 0, 0, 0, 0, 0, 0, 0, 0, 0, 0, 0, 0, 0, 0, 0, 0, 0, 0, 0, 0, 0, 0, 0, 0, 0, 0, 0,
   0, 0, 0, 0, 0, 0, 0, 0, 0, 0, 0, 0, 0, 0, 0, 0, 0, 0, 0, 0, 0, 0, 0, 0, 0, 0, 0, 0, 0, 0, 0, 0, 0, 0, 0, 0, 0, 0,
   0, 0, 0, 0, 0, 0, 0, 0, 0, 0, 0, 0, 0, 0, 0, 0, 0, 0, 0, 0, 0, 0, 0, 0, 0, 0, 0, 0, 0, 0, 0, 0, 0, 0, 0, 0, 0, 0,
   0, 0, 0, 0, 0, 0, 0, 0, 0, 0, 0, 0, 0, 0, 0, 0, 0, 0, 0, 0, 0, 0, 0, 0, 0, 0, 0, 0, 0, 0, 0]

/-- Atlanta_Office_Building_Loads.csv:3626-4345. -/
def june : List Nat :=
  [0, 0, 0, 0, 0, 0, 0, 0, 0, 0, 0, 0, 0, 0, 0, 0, 0, 0, 0, 0, 0, 0, 0, 0, 0, 0, 0, 0, 0, 0, 0, 0, 0, 0, 0, 0, 0, 0,
   0, 0, 0, 0, 0, 0, 0, 0, 0, 0, 0, 0, 0, 0, 0, 0, 0, 0, 0, 0, 0, 0, 0, 0, 0, 0, 0, 0, 0, 0, 0, 0, 0, 0, 0, 0, 0, 0,
   0, 0, 0, 0, 0, 0, 0, 0, 0, 0, 0, 0, 0, 0, 0, 0, 0, 0, 0, 0, 0, 0, 0, 0, 0, 0, 0, 0, 0, 0, 0, 0, 0, 0, 0, 0, 0, 0,
   0, 0, 0, 0, 0, 0, 0, 0, 0, 0, 0, 0, 0, 0, 0, 0, 0, 0, 0, 0, 0, 0, 0, 0, 0, 0, 0, 0, 0, 0, 0, 0, 0, 0, 0, 0, 0, 0,
   0, 0, 0, 0, 0, 0, 0, 0, 0, 0, 0, 0, 0, 0, 0, 0, 0, 0, 0, 0, 0, 0, 0, 0, 0, 0, 0, 0, 0, 0, 0, 0, 0, 0, 0, 0, 0, 0,
   0, 0, 0, 0, 0, 0, 0, 0, 0, 0, 0, 0, 0, 0, 0, 0, 0, 0, 0, 0, 0, 0, 0, 0, 0, 0, 0, 0, 0, 0, 0, 0, 0, 0, 0, 0, 0, 0,
   0, 0, 0, 0, 0, 0, 0, 0, 0, 0, 0, 0, 0, 0, 0, 0, 0, 0, 0, 0, 0, 0, 0, 0, 0, 0, 0, 0, 0, 0, 0, 0, 0, 0, 0, 0, 0, 0,
   0, 0, 0, 0, 0, 0, 0, 0, 0, 0, 0, 0, 0, 0, 0, 0, 0, 0, 0, 0, 0, 0, 0, 0, 0, 0, 0, 0, 0, 0, 0, 0, 0, 0, 0, 0, 0, 0,
   0, 0, 0, 0, 0, 0, 0, 0, 0, 0, 0, 0, 0, 0, 0, 0, 0, 0, 0, 0, 0, 0, 0, 0, 0, 0, 0, 0, 0, 0, 0, 0, 0, 0, 0, 0, 0, 0,
   0, 0, 0, 0, 0, 0, 0, 0, 0, 0, 0, 0, 0, 0, 0, 0, 0, 0, 0, 0, 0, 0, 0, 0, 0, 0, 0, 0, 0, 0, 0, 0, 0, 0, 0, 0, 0, 0,
   0, 0, 0, 0, 0, 0, 0, 0, 0, 0, 0, 0, 0, 0, 0, 0, 0, 0, 0, 0, 0, 0, 0, 0, 0, 0, 0, 0, 0, 0, 0, 0, 0, 0, 0, 0, 0, 0,
   0, 0, 0, 0, 0, 0, 0, 0, 0, 0, 0, 0, 0, 0, 0, 0, 0, 0, 0, 0, 0, 0, 0, 0, 0, 0, 0, 0, 0, 0, 0, 0, 0, 0, 0, 0, 0, 0,
   0, 0, 0, 0, 0, 0, 0, 0, 0, 0, 0, 0, 0, 0, 0, 0, 0, 0, 0, 0, 0, 0, 0, 0, 0, 0, 0, 0, 0, 0, 0, 0, 0, 0, 0, 0, 0, 0,
   0, 0, 0, 0, 0, 0, 0, 0, 0, 0, 0, 0, 0, 0, 0, 0, 0, 0, 0, 0, 0, 0, 0, 0, 0, 0, 0, 0, 0, 0, 0, 0, 0, 0, 0, 0, 0, 0,
   0, 0, 0, 0, 0, 0, 0, 0, 0, 0, 0, 0, 0, 0, 0, 0, 0, 0, 0, 0, 0, 0, 0, 0, 0, 0, 0, 0, 0, 0, 0, 0, 0, 0, 0, 0, 0, 0,
   0, 0, 0, 0, 0, 0, 0, 0, 0, 0, 0, 0, 0, 0, 0, 0, 0, 0, 0, 0, 0, 0, 0, 0, 0, 0, 0, 0, 0, 0, 0, 0, 0, 0, 0, 0, 0, 0,
   0, 0, 0, 0, 0, 0, 0, 0, 0, 0, 0, 0, 0, 0, 0, 0, 0, 0, 0, 0, 0, 0, 0, 0, 0, 0, 0, 0, 0, 0, 0, 0, 0, 0, 0, 0, 0, 0,
   0, 0, 0, 0, 0, 0, 0, 0, 0, 0, 0, 0, 0, 0, 0, 0, 0, 0, 0, 0, 0, 0, 0, 0, 0, 0, 0, 0, 0, 0, 0, 0, 0, 0, 0, 0, 0, 0,
   0, 0, 0, 0, 0, 0, 0, 0, 0, 0, 0, 0, 0, 0, 0, 0, 0, 0, 0, 0, 0, 0, 0, 0, 0, 0, 0, 0, 0, 0, 0, 0, 0, 0, 0, 0]

/-- Atlanta_Office_Building_Loads.csv:4346-5089. -/
def july : List Nat :=
  [0, 0, 0, 0, 0, 0, 0, 0, 0, 0, 0, 0, 0, 0, 0, 0, 0, 0, 0, 0, 0, 0, 0, 0, 0, 0, 0, 0, 0, 0, 0, 0, 0, 0, 0, 0, 0, 0,
   0, 0, 0, 0, 0, 0, 0, 0, 0, 0, 0, 0, 0, 0, 0, 0, 0, 0, 0, 0, 0, 0, 0, 0, 0, 0, 0, 0, 0, 0, 0, 0, 0, 0, 0, 0, 0, 0,
   0, 0, 0, 0, 0, 0, 0, 0, 0, 0, 0, 0, 0, 0, 0, 0, 0, 0, 0, 0, 0, 0, 0, 0, 0, 0, 0, 0, 0, 0, 0, 0, 0, 0, 0, 0, 0, 0,
   0, 0, 0, 0, 0, 0, 0, 0, 0, 0, 0, 0, 0, 0, 0, 0, 0, 0, 0, 0, 0, 0, 0, 0, 0, 0, 0, 0, 0, 0, 0, 0, 0, 0, 0, 0, 0, 0,
   0, 0, 0, 0, 0, 0, 0, 0, 0, 0, 0, 0, 0, 0, 0, 0, 0, 0, 0, 0, 0, 0, 0, 0, 0, 0, 0, 0, 0, 0, 0, 0, 0, 0, 0, 0, 0, 0,
   0, 0, 0, 0, 0, 0, 0, 0, 0, 0, 0, 0, 0, 0, 0, 0, 0, 0, 0, 0, 0, 0, 0, 0, 0, 0, 0, 0, 0, 0, 0, 0, 0, 0, 0, 0, 0, 0,
   0, 0, 0, 0, 0, 0, 0, 0, 0, 0, 0, 0, 0, 0, 0, 0, 0, 0, 0, 0, 0, 0, 0, 0, 0, 0, 0, 0, 0, 0, 0, 0, 0, 0, 0, 0, 0, 0,
   0, 0, 0, 0, 0, 0, 0, 0, 0, 0, 0, 0, 0, 0, 0, 0, 0, 0, 0, 0, 0, 0, 0, 0, 0, 0, 0, 0, 0, 0, 0, 0, 0, 0, 0, 0, 0, 0,
   0, 0, 0, 0, 0, 0, 0, 0, 0, 0, 0, 0, 0, 0, 0, 0, 0, 0, 0, 0, 0, 0, 0, 0, 0, 0, 0, 0, 0, 0, 0, 0, 0, 0, 0, 0, 0, 0,
   0, 0, 0, 0, 0, 0, 0, 0, 0, 0, 0, 0, 0, 0, 0, 0, 0, 0, 0, 0, 0, 0, 0, 0, 0, 0, 0, 0, 0, 0, 0, 0, 0, 0, 0, 0, 0, 0,
   0, 0, 0, 0, 0, 0, 0, 0, 0, 0, 0, 0, 0, 0, 0, 0, 0, 0, 0, 0, 0, 0, 0, 0, 0, 0, 0, 0, 0, 0, 0, 0, 0, 0, 0, 0, 0, 0,
   0, 0, 0, 0, 0, 0, 0, 0, 0, 0, 0, 0, 0, 0, 0, 0, 0, 0, 0, 0, 0, 0, 0, 0, 0, 0, 0, 0, 0, 0, 0, 0, 0, 0, 0, 0, 0, 0,
   0, 0, 0, 0, 0, 0, 0, 0, 0, 0, 0, 0, 0, 0, 0, 0, 0, 0, 0, 0, 0, 0, 0, 0, 0, 0, 0, 0, 0, 0, 0, 0, 0, 0, 0, 0, 0, 0,
   0, 0, 0, 0, 0, 0, 0, 0, 0, 0, 0, 0, 0, 0, 0, 0, 0, 0, 0, 0, 0, 0, 0, 0, 0, 0, 0, 0, 0, 0, 0, 0, 0, 0, 0, 0, 0, 0,
   0, 0, 0, 0, 0, 0, 0, 0, 0, 0, 0, 0, 0, 0, 0, 0, 0, 0, 0, 0, 0, 0, 0, 0, 0, 0, 0, 0, 0, 0, 0, 0, 0, 0, 0, 0, 0, 0,
   0, 0, 0, 0, 0, 0, 0, 0, 0, 0, 0, 0, 0, 0, 0, 0, 0, 0, 0, 0, 0, 0, 0, 0, 0, 0, 0, 0, 0, 0, 0, 0, 0, 0, 0, 0, 0, 0,
   0, 0, 0, 0, 0, 0, 0, 0, 0, 0, 0, 0, 0, 0, 0, 0, 0, 0, 0, 0, 0, 0, 0, 0, 0, 0, 0, 0, 0, 0, 0, 0, 0, 0, 0, 0, 0, 0,
   0, 0, 0, 0, 0, 0, 0, 0, 0, 0, 0, 0, 0, 0, 0, 0, 0, 0, 0, 0, 0, 0, 0, 0, 0, 0, 0, 0, 0, 0, 0, 0, 0, 0, 0, 0, 0, 0,
   0, 0, 0, 0, 0, 0, 0, 0, 0, 0, 0, 0, 0, 0, 0, 0, 0, 0, 0, 0, 0, 0, 0, 0, 0, 0, 0, 0, 0, 0, 0, 0, 0, 0, 0, 0, 0, 0,
   0, 0, 0, 0, 0, 0, 0, 0, 0, 0, 0, 0, 0, 0, 0, 0, 0, 0, 0, 0, 0, 0]

/-- Atlanta_Office_Building_Loads.csv:5090-5833. -/
def august : List Nat :=
  [0, 0, 0, 0, 0, 0, 0, 0, 0, 0, 0, 0, 0, 0, 0, 0, 0, 0, 0, 0, 0, 0, 0, 0, 0, 0, 0, 0, 0, 0, 0, 0, 0, 0, 0, 0, 0, 0,
   0, 0, 0, 0, 0, 0, 0, 0, 0, 0, 0, 0, 0, 0, 0, 0, 0, 0, 0, 0, 0, 0, 0, 0, 0, 0, 0, 0, 0, 0, 0, 0, 0, 0, 0, 0, 0, 0,
   0, 0, 0, 0, 0, 0, 0, 0, 0, 0, 0, 0, 0, 0, 0, 0, 0, 0, 0, 0, 0, 0, 0, 0, 0, 0, 0, 0, 0, 0, 0, 0, 0, 0, 0, 0, 0, 0,
   0, 0, 0, 0, 0, 0, 0, 0, 0, 0, 0, 0, 0, 0, 0, 0, 0, 0, 0, 0, 0, 0, 0, 0, 0, 0, 0, 0, 0, 0, 0, 0, 0, 0, 0, 0, 0, 0,
   0, 0, 0, 0, 0, 0, 0, 0, 0, 0, 0, 0, 0, 0, 0, 0, 0, 0, 0, 0, 0, 0, 0, 0, 0, 0, 0, 0, 0, 0, 0, 0, 0, 0, 0, 0, 0, 0,
   0, 0, 0, 0, 0, 0, 0, 0, 0, 0, 0, 0, 0, 0, 0, 0, 0, 0, 0, 0, 0, 0, 0, 0, 0, 0, 0, 0, 0, 0, 0, 0, 0, 0, 0, 0, 0, 0,
   0, 0, 0, 0, 0, 0, 0, 0, 0, 0, 0, 0, 0, 0, 0, 0, 0, 0, 0, 0, 0, 0, 0, 0, 0, 0, 0, 0, 0, 0, 0, 0, 0, 0, 0, 0, 0, 0,
   0, 0, 0, 0, 0, 0, 0, 0, 0, 0, 0, 0, 0, 0, 0, 0, 0, 0, 0, 0, 0, 0, 0, 0, 0, 0, 0, 0, 0, 0, 0, 0, 0, 0, 0, 0, 0, 0,
   0, 0, 0, 0, 0, 0, 0, 0, 0, 0, 0, 0, 0, 0, 0, 0, 0, 0, 0, 0, 0, 0, 0, 0, 0, 0, 0, 0, 0, 0, 0, 0, 0, 0, 0, 0, 0, 0,
   0, 0, 0, 0, 0, 0, 0, 0, 0, 0, 0, 0, 0, 0, 0, 0, 0, 0, 0, 0, 0, 0, 0, 0, 0, 0, 0, 0, 0, 0, 0, 0, 0, 0, 0, 0, 0, 0,
   0, 0, 0, 0, 0, 0, 0, 0, 0, 0, 0, 0, 0, 0, 0, 0, 0, 0, 0, 0, 0, 0, 0, 0, 0, 0, 0, 0, 0, 0, 0, 0, 0, 0, 0, 0, 0, 0,
   0, 0, 0, 0, 0, 0, 0, 0, 0, 0, 0, 0, 0, 0, 0, 0, 0, 0, 0, 0, 0, 0, 0, 0, 0, 0, 0, 0, 0, 0, 0, 0, 0, 0, 0, 0, 0, 0,
   0, 0, 0, 0, 0, 0, 0, 0, 0, 0, 0, 0, 0, 0, 0, 0, 0, 0, 0, 0, 0, 0, 0, 0, 0, 0, 0, 0, 0, 0, 0, 0, 0, 0, 0, 0, 0, 0,
   0, 0, 0, 0, 0, 0, 0, 0, 0, 0, 0, 0, 0, 0, 0, 0, 0, 0, 0, 0, 0, 0, 0, 0, 0, 0, 0, 0, 0, 0, 0, 0, 0, 0, 0, 0, 0, 0,
   0, 0, 0, 0, 0, 0, 0, 0, 0, 0, 0, 0, 0, 0, 0, 0, 0, 0, 0, 0, 0, 0, 0, 0, 0, 0, 0, 0, 0, 0, 0, 0, 0, 0, 0, 0, 0, 0,
   0, 0, 0, 0, 0, 0, 0, 0, 0, 0, 0, 0, 0, 0, 0, 0, 0, 0, 0, 0, 0, 0, 0, 0, 0, 0, 0, 0, 0, 0, 0, 0, 0, 0, 0, 0, 0, 0,
   0, 0, 0, 0, 0, 0, 0, 0, 0, 0, 0, 0, 0, 0, 0, 0, 0, 0, 0, 0, 0, 0, 0, 0, 0, 0, 0, 0, 0, 0, 0, 0, 0, 0, 0, 0, 0, 0,
   0, 0, 0, 0, 0, 0, 0, 0, 0, 0, 0, 0, 0, 0, 0, 0, 0, 0, 0, 0, 0, 0, 0, 0, 0, 0, 0, 0, 0, 0, 0, 0, 0, 0, 0, 0, 0, 0,
   0, 0, 0, 0, 0, 0, 0, 0, 0, 0, 0, 0, 0, 0, 0, 0, 0, 0, 0, 0, 0, 0, 0, 0, 0, 0, 0, 0, 0, 0, 0, 0, 0, 0, 0, 0, 0, 0,
   0, 0, 0, 0, 0, 0, 0, 0, 0, 0, 0, 0, 0, 0, 0, 0, 0, 0, 0, 0, 0, 0]

/-- Atlanta_Office_Building_Loads.csv:5834-6553. -/
def september : List Nat :=
  [0, 0, 0, 0, 0, 0, 0, 0, 0, 0, 0, 0, 0, 0, 0, 0, 0, 0, 0, 0, 0, 0, 0, 0, 0, 0, 0, 0, 0, 0, 0, 0, 0, 0, 0, 0, 0, 0,
   0, 0, 0, 0, 0, 0, 0, 0, 0, 0, 0, 0, 0, 0, 0, 0, 0, 0, 0, 0, 0, 0, 0, 0, 0, 0, 0, 0, 0, 0, 0, 0, 0, 0, 0, 0, 0, 0,
   0, 0, 0, 0, 0, 0, 0, 0, 0, 0, 0, 0, 0, 0, 0, 0, 0, 0, 0, 0, 0, 0, 0, 0, 0, 0, 0, 0, 0, 0, 0, 0, 0, 0, 0, 0, 0, 0,
   0, 0, 0, 0, 0, 0, 0, 0, 0, 0, 0, 0, 0, 0, 0, 0, 0, 0, 0, 0, 0, 0, 0, 0, 0, 0, 0, 0, 0, 0, 0, 0, 0, 0, 0, 0, 0, 0,
   0, 0, 0, 0, 0, 0, 0, 0, 0, 0, 0, 0, 0, 0, 0, 0, 0, 0, 0, 0, 0, 0, 0, 0, 0, 0, 0, 0, 0, 0, 0, 0, 0, 0, 0, 0, 0, 0,
   0, 0, 0, 0, 0, 0, 0, 0, 0, 0, 0, 0, 0, 0, 0, 0, 0, 0, 0, 0, 0, 0, 0, 0, 0, 0, 0, 0, 0, 0, 0, 0, 0, 0, 0, 0, 0, 0,
   0, 0, 0, 0, 0, 0, 0, 0, 0, 0, 0, 0, 0, 0, 0, 0, 0, 0, 0, 0, 0, 0, 0, 0, 0, 0, 0, 0, 0, 0, 0, 0, 0, 0, 0, 0, 0, 0,
   0, 0, 0, 0, 0, 0, 0, 0, 0, 0, 0, 0, 0, 0, 0, 0, 0, 0, 0, 0, 0, 0, 0, 0, 0, 0, 0, 0, 0, 0, 0, 0, 0, 0, 0, 0, 0, 0,
   0, 0, 0, 0, 0, 0, 0, 0, 0, 0, 0, 0, 0, 0, 0, 0, 0, 0, 0, 0, 0, 0, 0, 0, 0, 0, 0, 0, 0, 0, 0, 0, 0, 0, 0, 0, 0, 0,
   0, 0, 0, 0, 0, 0, 0, 0, 0, 0, 0, 0, 0, 0, 0, 0, 0, 0, 0, 0, 0, 0, 0, 0, 0, 0, 0, 0, 0, 0, 0, 0, 0, 0, 0, 0, 0, 0,
   0, 0, 0, 0, 0, 0, 0, 0, 0, 0, 0, 0, 0, 0, 0, 0, 0, 0, 0, 0, 0, 0, 0, 0, 0, 0, 0, 0, 0, 0, 0, 0, 0, 0, 0, 0, 0, 0,
   0, 0, 0, 0, 0, 0, 0, 0, 0, 0, 0, 0, 0, 0, 0, 0, 0, 0, 0, 0, 0, 0, 0, 0, 0, 0, 0, 0, 0, 0, 0, 0, 0, 0, 0, 0, 0, 0,
   0, 0, 0, 0, 0, 0, 0, 0, 0, 0, 0, 0, 0, 0, 0, 0, 0, 0, 0, 0, 0, 0, 0, 0, 0, 0, 0, 0, 0, 0, 0, 0, 0, 0, 0, 0, 0, 0,
   0, 0, 0, 0, 0, 0, 0, 0, 0, 0, 0, 0, 0, 0, 0, 0, 0, 0, 0, 0, 0, 0, 0, 0, 0, 0, 0, 0, 0, 0, 0, 0, 0, 0, 0, 0, 0, 0,
   0, 0, 0, 0, 0, 0, 0, 0, 0, 0, 0, 0, 0, 0, 0, 0, 0, 0, 0, 0, 0, 0, 0, 0, 0, 0, 0, 0, 0, 0, 0, 0, 0, 0, 0, 0, 0, 0,
   0, 0, 0, 0, 0, 0, 0, 0, 0, 0, 0, 0, 0, 0, 0, 0, 0, 0, 0, 0, 0, 0, 0, 0, 0, 0, 0, 0, 0, 0, 0, 0, 0, 0, 0, 0, 0, 0,
   0, 0, 0, 0, 0, 0, 0, 0, 0, 0, 0, 0, 0, 0, 0, 0, 0, 0, 0, 0, 0, 0, 0, 0, 0, 0, 0, 0, 0, 0, 0, 0, 0, 0, 0, 0, 0, 0,
   0, 0, 0, 0, 0, 0, 0, 0, 0, 0, 0, 0, 0, 0, 0, 0, 0, 0, 0, 0, 0, 0, 0, 0, 0, 0, 0, 0, 0, 0, 0, 0, 0, 0, 0, 0, 0, 0,
   0, 0, 0, 0, 0, 0, 0, 0, 0, 0, 0, 0, 0, 0, 0, 0, 0, 0, 0, 0, 0, 0, 0, 0, 0, 0, 0, 0, 0, 0, 0, 0, 0, 0, 0, 0]

/-- Atlanta_Office_Building_Loads.csv:6554-7297. -/
def october : List Nat :=
  [0, 0, 0, 0, 0, 0, 0, 0, 0, 0, 0, 0, 0, 0, 0, 0, 0, 0, 0, 0, 0, 0, 0, 0, 0, 0, 0, 0, 0, 0, 0, 0, 0, 0, 0, 0, 0, 0,
   0, 0, 0, 0, 0, 0, 0, 0, 0, 0, 0, 0, 0, 0, 0, 0, 0, 0, 0, 0, 0, 0, 0, 0, 0, 0, 0, 0, 0, 0, 0, 0, 0, 0, 0, 0, 0, 0,
   0, 0, 0, 0, 0, 0, 0, 0, 0, 0, 0, 0, 0, 0, 0, 0, 0, 0, 0, 0, 0, 0, 0, 0, 0, 728319810355556, 0, 0, 0, 0, 0, 0, 0, 0,
   0, 0, 0, 0, 0, 0, 0, 0, 0, 0, 0, 0, 0, 0, 0, 0, 0, 0, 0, 0, 0, 0, 0, 0, 0, 0, 0, 0, 0, 0, 0, 0, 0, 0, 0, 0, 0, 0,
   0, 0, 0, 0, 0, 0, 0, 0, 0, 0, 0, 0, 0, 0, 0, 0, 0, 0, 0, 0, 0, 0, 0, 0, 0, 0, 0, 0, 0, 0, 0, 0, 0, 0, 0, 0, 0, 0,
   0, 0, 0, 0, 0, 0, 0, 0, 0, 0, 0, 0, 0, 0, 0, 0, 0, 0, 0, 0, 0, 0, 0, 0, 0, 0, 0, 0, 0, 0, 0, 0, 0, 0, 0, 0, 0, 0,
   0, 0, 0, 0, 0, 0, 0, 0, 0, 0, 0, 0, 0, 0, 0, 0, 0, 0, 0, 0, 0, 0, 0, 0, 0, 0, 0, 0, 0, 0, 0, 0, 0, 0, 0, 0, 0, 0,
   0, 0, 0, 0, 0, 0, 0, 0, 0, 0, 0, 0, 0, 0, 0, 0, 0, 0, 0, 0, 0, 0, 0, 0, 0, 0, 0, 0, 0, 0, 0, 0, 0, 0, 0, 0, 0, 0,
   0, 0, 0, 0, 0, 0, 0, 0, 0, 0, 0, 0, 0, 0, 0, 0, 0, 0, 0, 0, 0, 0, 0, 0, 0, 0, 0, 0, 0, 0, 0, 0, 0, 0, 0, 0, 0, 0,
   0, 0, 0, 0, 0, 0, 0, 0, 0, 0, 0, 0, 0, 0, 0, 0, 0, 0, 0, 0, 0, 0, 0, 0, 0, 0, 0, 10889086440444500, 0, 0, 0, 0, 0,
   0, 0, 0, 0, 0, 0, 0, 0, 0, 0, 0, 0, 0, 0, 0, 0, 0, 0, 0, 0, 0, 0, 0, 0, 0, 0, 0, 0, 0, 0, 0, 0, 0, 0, 0, 0, 0, 0,
   0, 0, 0, 0, 0, 0, 0, 0, 0, 0, 0, 0, 0, 0, 0, 0, 0, 0, 0, 0, 0, 0, 0, 0, 0, 0, 0, 0, 0, 0, 0, 0, 0, 0, 0, 0, 0, 0,
   0, 0, 0, 0, 0, 0, 0, 0, 0, 0, 0, 0, 0, 0, 0, 0, 0, 0, 0, 0, 0, 0, 0, 0, 0, 0, 0, 0, 0, 0, 0, 0, 0, 0, 0, 0, 0, 0,
   0, 0, 0, 0, 0, 0, 0, 0, 0, 0, 0, 0, 0, 0, 0, 0, 0, 0, 0, 0, 0, 0, 0, 0, 0, 0, 0, 0, 0, 0, 0, 0, 0, 0, 0, 0, 0, 0,
   0, 0, 0, 0, 0, 0, 0, 0, 0, 0, 12141701676444500, 0, 0, 0, 0, 0, 0, 0, 0, 0, 0, 0, 0, 0, 0, 0, 0, 0, 0, 0, 0, 0, 0,
   0, 0, 0, 0, 0, 0, 0, 0, 0, 0, 0, 0, 0, 0, 0, 0, 0, 0, 0, 0, 0, 0, 0, 0, 0, 0, 166072848106667000, 0, 0, 0, 0, 0, 0,
   0, 0, 0, 0, 0, 0, 0, 36249965733333300, 0, 0, 0, 0, 0, 0, 0, 0, 0, 444398379333333000, 301608272577778000, 0, 0, 0,
   0, 0, 0, 0, 0, 0, 0, 0, 0, 0, 0, 0, 0, 0, 0, 0, 0, 0, 0, 72502276035555600, 0, 0, 0, 0, 0, 0, 0, 0, 0, 0, 0, 0, 0,
   0, 0, 0, 0, 0, 0, 0, 0, 0, 0, 0, 0, 0, 0, 0, 0, 0, 0, 0, 0, 0, 0, 0, 0, 0, 0, 0, 0, 0, 0, 0, 0, 0, 0, 0, 0, 0, 0,
   0, 0, 0, 0, 0, 0, 0, 0, 0, 0, 0, 0, 0, 0, 0, 0, 0, 0, 0, 0, 215511306911111000, 0, 0, 0, 0, 0, 0, 0, 0, 0, 0, 0, 0,
   68682387173333300, 115019567480000000, 0, 0, 0, 0, 0, 0, 0, 0, 0, 377132697911111000, 121654111293333000, 0, 0, 0,
   0, 0, 0, 0, 0, 0, 0, 0, 0, 0, 0, 0, 0]

/-- Atlanta_Office_Building_Loads.csv:7298-8017. -/
def november : List Nat :=
  [0, 0, 0, 0, 0, 0, 202422751088889000, 0, 0, 0, 0, 0, 0, 0, 0, 0, 0, 0, 0, 0, 0, 0, 0, 0, 0, 0, 0, 0, 0, 0, 0, 0, 0,
   0, 0, 0, 0, 0, 0, 0, 0, 0, 0, 0, 0, 0, 0, 0, 0, 0, 0, 0, 0, 0, 0, 0, 0, 0, 0, 0, 0, 0, 0, 0, 0, 0, 0, 0, 0, 0, 0,
   0, 0, 0, 0, 0, 0, 0, 0, 0, 0, 0, 0, 0, 0, 0, 0, 0, 0, 0, 0, 0, 0, 0, 0, 0, 0, 0, 0, 0, 0, 0, 0, 0, 0, 0, 0, 0, 0,
   0, 0, 0, 0, 0, 0, 0, 0, 0, 0, 0, 0, 0, 0, 0, 0, 0, 0, 0, 0, 0, 0, 0, 0, 0, 0, 0, 0, 0, 0, 0, 0, 0, 0, 0, 0, 0, 0,
   0, 0, 0, 0, 10889701889777800, 0, 0, 0, 0, 0, 0, 0, 0, 0, 0, 0, 0, 0, 0, 0, 0, 0, 0, 0, 0, 0, 0, 0,
   365793776622222000, 0, 0, 0, 0, 0, 0, 0, 0, 0, 0, 0, 0, 0, 0, 0, 0, 0, 0, 0, 0, 0, 0, 0, 53409279288888900, 0, 0,
   0, 0, 0, 0, 0, 0, 0, 0, 0, 0, 0, 0, 0, 0, 0, 0, 0, 0, 0, 0, 0, 0, 0, 0, 0, 0, 0, 0, 0, 0, 0, 0, 0, 0, 0, 0, 0, 0,
   0, 0, 0, 0, 0, 0, 0, 20530862232000000, 0, 0, 0, 0, 0, 0, 0, 0, 0, 0, 0, 0, 0, 0, 0, 0, 0, 0, 0, 0, 0, 0, 0, 0, 0,
   0, 0, 0, 0, 0, 0, 0, 0, 0, 0, 0, 0, 0, 0, 0, 0, 0, 0, 0, 0, 0, 0, 202501587217778000, 0, 0, 0, 0, 0, 0, 0, 0, 0, 0,
   0, 0, 0, 65334635871111100, 0, 0, 0, 0, 0, 0, 0, 0, 0, 419932802977778000, 0, 0, 0, 0, 0, 0, 0, 0, 0, 0, 0, 0, 0,
   0, 0, 0, 0, 0, 0, 0, 0, 0, 0, 395713406355556000, 0, 0, 0, 0, 0, 0, 0, 0, 0, 0, 0, 0, 0, 0, 0, 0, 0, 0, 0, 0, 0, 0,
   0, 7680749065777780, 0, 0, 0, 0, 0, 0, 0, 0, 0, 0, 0, 0, 0, 0, 0, 0, 0, 0, 0, 0, 0, 0, 0, 264800006377778000, 0, 0,
   0, 0, 0, 0, 0, 0, 0, 0, 0, 0, 0, 0, 0, 0, 0, 0, 0, 0, 0, 0, 28237460169777800, 286745757320000000,
   278834302675556000, 65895867048888900, 0, 0, 0, 0, 0, 0, 0, 0, 0, 0, 0, 0, 0, 0, 0, 0, 0, 0, 0, 0, 0, 0, 0, 0, 0,
   0, 0, 0, 0, 0, 0, 0, 0, 0, 0, 0, 0, 0, 0, 0, 0, 0, 0, 0, 0, 577865894044444, 0, 0, 0, 0, 0, 0, 0, 0, 0,
   160606485742222000, 75189445053333300, 206212160555556000, 298938394755556000, 362795659155555000, 0, 0, 0, 0, 0,
   0, 0, 0, 307006642444444000, 973980807822222000, 303325669288889000, 225117591791111000, 25947021515111100, 0, 0,
   0, 0, 0, 0, 23102326775111100, 0, 190421489088889000, 332061291733333000, 442253098800000000, 0, 0, 0, 0, 0, 0, 0,
   0, 536724571466667000, 1118453142755560000, 357177485955556000, 91757048035555600, 49474213480000000, 0, 0, 0, 0,
   0, 0, 0, 0, 0, 156753186773333000, 290083837275556000, 0, 0, 0, 0, 0, 0, 0, 0, 0, 0, 0, 0, 0, 0, 0, 0, 0, 0, 0, 0,
   0, 0, 0, 0, 0, 0, 0, 0, 0, 0, 0, 0, 0, 296716915733333000, 102611229706667000, 0, 0, 0, 0, 0, 0, 0, 0, 0, 0, 0,
   111004786328889000, 256151770960000000, 0, 0, 0, 0, 0, 0, 0, 0, 149143302302222000, 817850104088889000,
   516238900800000000, 194617974328889000, 60814307053333300, 91358764395555600, 0, 0, 0, 0, 0, 0, 0, 0, 0, 0, 0, 0,
   0, 0, 0, 0, 0, 0, 0, 0, 0, 0, 0, 0, 0, 0, 0, 0, 0, 0, 0, 0, 0, 0, 0, 0, 0, 0, 0, 0, 0, 0, 0, 0, 0, 0, 0, 0, 0, 0,
   0, 0, 0, 0, 0, 0, 0, 0, 0, 0, 0, 0, 0, 0, 0, 0, 0, 0, 0, 0, 0, 0, 0, 0, 0, 0, 0, 0, 0, 0, 0, 0, 0, 0, 0, 0, 0, 0,
   0, 0, 0, 382150075333333000, 79879168973333300, 0, 0, 0, 0, 0, 0, 0, 0, 0, 0, 0, 0, 0, 0, 0, 0, 0, 0, 0, 0, 0, 0,
   397550962222222000, 170057442933333000, 56199023195555600, 0, 0, 0, 0, 0, 0, 0, 147468107831111000,
   201686263386667000, 92341431831111100, 217417734488889000, 314210330355556000, 0, 0]

/-- Atlanta_Office_Building_Loads.csv:8018-8761. -/
def december : List Nat :=
  [0, 0, 0, 0, 0, 0, 428763035555556000, 1080298214800000000, 378539439244444000, 139842983662222000,
   98779618000000000, 0, 0, 0, 0, 0, 0, 0, 0, 72509895884444500, 252333054382222000, 365324862844444000, 0, 0, 0, 0,
   0, 0, 0, 0, 484812885555555000, 1095915974311110000, 839417207155556000, 585931211022222000, 399277151066667000,
   239563946071111000, 290628656471111000, 296974818311111000, 128031631742222000, 107020777644444000,
   169866360568889000, 0, 0, 0, 0, 0, 0, 0, 0, 0, 0, 0, 0, 0, 0, 0, 0, 0, 0, 0, 0, 0, 0, 0, 0, 0, 0, 0, 0, 0, 0, 0, 0,
   0, 0, 0, 0, 234363692275556000, 1016291484133330000, 1487423810222220000, 671443499822222000, 319421134711111000,
   21975028746222200, 0, 0, 0, 0, 0, 0, 0, 0, 89370863048888900, 268130173413333000, 370893213955555000, 0, 0, 0, 0,
   0, 0, 0, 0, 384770131066667000, 1023202100933330000, 256176682004444000, 115185445728889000, 0, 0, 0, 0, 0, 0, 0,
   0, 0, 0, 0, 1533183933511110, 0, 0, 0, 0, 0, 0, 0, 0, 0, 230505411097778000, 129457129626667000, 0, 0, 0, 0, 0, 0,
   0, 0, 0, 0, 0, 18392761940888900, 66985212368888900, 0, 0, 0, 0, 0, 0, 0, 0, 52242856266666700, 585649862755556000,
   354958937644444000, 0, 0, 0, 0, 0, 0, 0, 0, 0, 0, 0, 0, 48601740782222200, 0, 0, 0, 0, 0, 0, 0, 0,
   63177632493333300, 513044425688889000, 276190215111111000, 0, 0, 0, 0, 0, 0, 0, 0, 0, 0, 0, 88029183502222200,
   256759893515556000, 0, 0, 0, 0, 0, 0, 0, 0, 176693159031111000, 841281139422222000, 590271594177778000,
   297303057955556000, 100590504395556000, 47864373866666700, 0, 0, 0, 0, 0, 0, 0, 0, 0, 0, 0, 0, 0, 0, 0, 0, 0, 0, 0,
   0, 0, 0, 0, 0, 0, 0, 0, 0, 0, 0, 0, 0, 0, 0, 0, 0, 0, 0, 0, 0, 0, 0, 0, 380963137333333000, 187340432497778000, 0,
   0, 0, 0, 0, 0, 0, 0, 0, 0, 0, 0, 0, 0, 0, 0, 0, 0, 0, 0, 0, 0, 0, 0, 0, 0, 0, 0, 0, 0, 0, 0, 0, 0, 0, 0, 0, 0, 0,
   0, 0, 0, 0, 0, 0, 0, 0, 0, 0, 0, 0, 0, 0, 0, 0, 0, 0, 0, 0, 0, 0, 0, 0, 0, 0, 0, 0, 0, 0, 0, 113119587466667000, 0,
   0, 0, 0, 0, 0, 0, 0, 0, 0, 0, 0, 0, 0, 0, 0, 0, 0, 0, 0, 0, 0, 0, 391091674933333000, 288956978853333000, 0, 0, 0,
   0, 0, 0, 0, 0, 0, 0, 114174936537778000, 194593063284444000, 162208998577778000, 0, 0, 0, 0, 0, 0, 0, 0,
   59791781946666700, 501910654177778000, 446473322800000000, 283464533160000000, 169525518866667000,
   90228096048888900, 115547388551111000, 33059300546666700, 0, 3283099815111110, 0, 0, 0, 0, 0, 0, 0, 0, 0, 0, 0, 0,
   0, 0, 0, 0, 0, 0, 0, 0, 0, 0, 0, 0, 0, 0, 0, 0, 0, 0, 0, 0, 0, 0, 0, 0, 0, 209730772315556000, 921403850488889000,
   1490474680488890000, 670678584222222000, 395528771555556000, 68979268208888900, 0, 66710897808888900, 0, 0, 0, 0,
   0, 11976175112888900, 155781656040000000, 337078669155555000, 445485673155556000, 0, 0, 0, 0, 0, 0, 0, 0,
   472547859555556000, 1099412312666670000, 345530840000000000, 81508351280000000, 76714294044444400, 0, 0, 0, 0, 0,
   0, 0, 0, 0, 65745228497777800, 239187642764444000, 0, 0, 0, 0, 0, 0, 0, 0, 143804425871111000, 741724882977778000,
   403394800177778000, 113651804604444000, 0, 0, 0, 0, 0, 0, 0, 0, 0, 0, 0, 112889233573333000, 0, 0, 0, 0, 0, 0, 0,
   0, 111206126182222000, 768174550755556000, 506306720844444000, 116151408111111000, 194414876048889000,
   87700943857777800, 131557277208889000, 0, 0, 0, 0, 207291541457778000, 159741339822222000, 272343949848889000,
   342570821777778000, 391800907022222000, 0, 0, 0, 0, 0, 0, 0, 0, 72549753555555600, 661329615777778000,
   430342688844444000, 234409118297778000, 106730637244444000, 0, 0, 0, 0, 0, 0, 0, 106816214008889000,
   56536934186666700, 161747411577778000, 235937484142222000, 0, 0, 0, 0, 0, 0, 0, 0, 0, 481216903022222000,
   398186926533333000, 271734068866667000, 202719045982222000, 89536155155555600, 112661224248889000,
   34440251622222200, 27988437646666700, 61422136537777800, 83225747991111100, 0, 0, 0, 0, 0, 0, 0, 0, 0, 0, 0, 0, 0,
   0, 0, 0, 0, 0, 0, 0, 0, 0, 0, 0, 0, 0, 0, 0, 0, 0, 0, 0, 0, 0, 0, 0, 0, 0, 0, 0, 0, 0, 0, 0, 0, 0, 0, 0, 0, 0, 0,
   0, 0, 0, 0, 0, 0, 0, 0, 0, 115251093657778000, 602293371155556000, 1124830370133330000, 496113707600000000,
   254630145751111000, 0, 36865708137777800, 0, 0, 0, 0, 0, 0, 15318944206222200, 162524636164444000,
   342060878044444000, 436429775822222000, 0, 0, 0, 0, 0, 0, 0, 0, 364618561466667000, 960587458044444000,
   298768413511111000, 204992398591111000, 25639824376444400, 0, 0, 0, 0, 0, 0, 0, 0, 0, 0, 98408296902222200, 0, 0,
   0, 0, 0, 0, 0, 0, 83225454920000000, 711673371244444000, 358739554977778000, 147896870866667000, 0, 0, 0, 0, 0, 0,
   0, 0, 0, 0, 101502834764444000, 203944669368889000, 0, 0, 0, 0, 0, 0, 0, 0, 105932604608889000, 524046315200000000,
   356913721955556000, 144693603622222000, 0, 0, 0, 0, 0, 0, 0, 0, 0, 0, 0, 55551336040000000, 0, 0, 0, 0, 0, 0, 0, 0,
   0, 341257863200000000, 279184229582222000, 154480127235556000, 86677832608888900, 0, 36821747471111100,
   66575792026666700, 103447947728889000, 134054243075556000, 183554246813333000, 0, 0, 0, 0, 0, 0, 0, 0, 0, 0, 0, 0,
   0, 0, 0, 0, 0, 0, 0, 0, 0, 0, 0, 0, 0, 0, 0, 0, 0, 0, 0]

/-- The whole year. -/
def table : List Nat :=
  january ++ february ++ march ++ april ++ may ++ june ++ july ++ august ++ september ++ october ++ november ++ december

end Ghedt.Office.Extracted

namespace Ghedt.Office.Rejected

/-- Atlanta_Office_Building_Loads.csv:2-745. -/
def january : List Nat :=
  [0, 0, 0, 0, 0, 0, 0, 0, 0, 0, 0, 0, 0, 0, 0, 0, 0, 0, 0, 0, 0, 0, 0, 0, 0, 0, 0, 0, 0, 0, 0, 0, 0, 0, 0, 0, 0, 0,
   0, 0, 0, 0, 0, 0, 0, 0, 0, 0, 0, 0, 0, 0, 0, 0, 0, 0, 0, 0, 0, 0, 0, 0, 0, 0, 0, 0, 0, 0, 0, 0, 0, 0, 0, 0, 0, 0,
   0, 0, 0, 0, 0, 0, 0, 39235481142222200, 0, 195093042600000000, 279261600355556000, 225756779884444000,
   141581774564444000, 0, 0, 0, 0, 0, 0, 0, 0, 0, 0, 0, 0, 0, 0, 0, 0, 0, 0, 0, 0, 155881886360000000,
   243859782417778000, 207692755808889000, 132364395048889000, 0, 0, 0, 0, 0, 0, 0, 0, 0, 0, 0, 0, 0, 0, 0, 0, 0, 0,
   0, 0, 0, 0, 0, 0, 0, 0, 0, 0, 0, 0, 0, 0, 0, 0, 0, 0, 0, 0, 0, 0, 0, 0, 0, 0, 0, 0, 0, 0, 0, 0, 0, 0, 0, 0, 0, 0,
   0, 0, 0, 0, 0, 0, 0, 0, 0, 0, 0, 0, 0, 0, 0, 0, 0, 0, 0, 0, 0, 0, 0, 0, 0, 0, 0, 0, 0, 0, 0, 0, 0, 0, 0, 0, 0, 0,
   0, 0, 0, 0, 0, 0, 0, 0, 0, 0, 0, 0, 0, 0, 0, 0, 0, 0, 0, 0, 0, 0, 0, 219445493506667000, 268461636840000000,
   271608341360000000, 0, 0, 0, 0, 0, 0, 0, 0, 0, 0, 0, 0, 0, 0, 0, 0, 0, 0, 19068906301333300, 129899080862222000,
   238642237426667000, 322668362622222000, 333339081777778000, 287934453746667000, 0, 0, 0, 0, 0, 0, 0, 0, 0, 0, 0, 0,
   0, 0, 0, 0, 0, 0, 47694685693333300, 0, 99114305208888900, 278503425391111000, 306253449688889000,
   256350473173333000, 0, 0, 0, 0, 0, 0, 0, 0, 0, 0, 0, 0, 0, 0, 0, 0, 0, 0, 0, 0, 259816918275555000,
   310338860977778000, 289083878644444000, 232484813382222000, 7057914340444440, 0, 0, 0, 0, 0, 0, 0, 0, 0, 0, 0, 0,
   0, 0, 0, 0, 0, 0, 0, 0, 0, 0, 0, 0, 0, 0, 0, 0, 0, 0, 0, 0, 0, 0, 0, 0, 0, 0, 0, 0, 0, 0, 0, 0, 0, 0, 0, 0, 0, 0,
   0, 0, 0, 0, 0, 0, 0, 0, 0, 0, 0, 0, 0, 0, 0, 0, 0, 0, 0, 0, 0, 0, 0, 0, 0, 0, 0, 0, 0, 0, 0, 0, 0, 0, 0, 0, 0, 0,
   0, 0, 0, 0, 0, 0, 0, 0, 0, 0, 0, 0, 0, 0, 0, 0, 0, 0, 0, 0, 0, 0, 0, 0, 7800556536000000, 0, 0, 171887085880000000,
   259876118640000000, 359293459377778000, 383026357955556000, 0, 0, 0, 0, 0, 0, 0, 0, 0, 0, 0, 0, 0,
   135263161408889000, 0, 0, 271265741231111000, 133039337817778000, 163534852284444000, 205721559515556000,
   213020495537778000, 403227749644445000, 752023401822222000, 797827485777778000, 411237383111111000,
   67001624351111100, 21819730364444400, 7781565528000000, 20881551123555600, 0, 0, 0, 0, 0, 0, 0, 0,
   1910820713733330, 155168258204444000, 329801713466667000, 324435581422222000, 151608323417778000,
   182148384693333000, 274731307120000000, 332808623066667000, 707719841955556000, 833262713822222000,
   854926530355556000, 433003774533333000, 104908614146667000, 25721913594666700, 28281391529333300,
   78470083071111100, 0, 0, 0, 0, 0, 0, 0, 0, 101365091342222000, 0, 0, 0, 0, 0, 0, 0, 8473652956888890, 0, 0, 0, 0,
   0, 0, 0, 0, 0, 0, 0, 0, 0, 0, 0, 0, 0, 0, 0, 0, 0, 0, 0, 0, 0, 0, 0, 0, 0, 0, 0, 0, 0, 0, 0, 0, 0, 0, 0, 0, 0, 0,
   0, 0, 0, 70820340928888900, 296224556266667000, 386578379822222000, 428719074888889000, 349730549022222000,
   137525084244444000, 0, 0, 0, 0, 0, 0, 0, 0, 0, 0, 0, 0, 0, 0, 0, 0, 0, 130117418840000000, 163658235222222000,
   365925658622222000, 101103964982222000, 78455136444444400, 88369732133333300, 150389440666667000, 0,
   18007959572000000, 0, 0, 0, 0, 0, 0, 0, 0, 0, 0, 0, 0, 0, 0, 0, 39811365875555600, 0, 193311170244444000,
   325490637422222000, 371822249377778000, 288595329102222000, 0, 0, 0, 0, 0, 0, 0, 0, 0, 0, 0, 0, 0, 0, 0, 0, 0, 0,
   0, 0, 26866297669333300, 297355810755556000, 357532102000000000, 303258262933333000, 0, 0, 0, 0, 0, 0, 0, 0, 0, 0,
   0, 0, 0, 0, 0, 0, 0, 0, 0, 0, 207762799804444000, 347517862133333000, 356494630266667000, 232624315231111000, 0, 0,
   0, 0, 0, 0, 0, 0, 0, 0, 0, 0, 0, 0, 0, 0, 0, 0, 0, 0, 0, 64411168800000000, 72509309742222200, 65773949466666700,
   1347201006400000, 0, 0, 0, 0, 0, 0, 0, 0, 0, 0, 0, 0, 0, 0, 0, 0, 0, 0, 0, 0, 0, 47080408644444400, 0, 0, 0, 0, 0,
   0, 0, 0, 0, 0, 0, 0, 0, 0, 0, 0, 0, 0, 132383444671111000, 121163217182222000, 239857017182222000,
   256930753973333000, 297581475511111000, 324819504577778000, 489115169466667000, 224659228573333000,
   426655854266667, 16544860664000000, 11947278301333300, 130083129520000000, 0, 0, 0, 0, 0, 0, 0, 0,
   56308338720000000, 0, 16836056120000000, 192441628257778000, 183416503391111000, 268326824128889000,
   391249933333333000, 757591752933333000, 879778960577778000, 978532202177778000, 1016546456000000000,
   595476537111111000, 219938439115556000, 125873749151111000, 29323523093333300, 17681449047111100, 0, 0]

/-- Atlanta_Office_Building_Loads.csv:746-1417. -/
def february : List Nat :=
  [0, 0, 0, 0, 0, 0, 218662700568889000, 0, 0, 0, 0, 0, 0, 0, 105249455848889000, 190077716675556000,
   359715481777778000, 0, 127617522262222000, 38904017715555600, 31374141657777800, 0, 0, 0, 0, 0, 0, 0, 0, 0, 0, 0,
   0, 0, 53376455324444400, 103046440306667000, 0, 186854813666667000, 440110748977778000, 399324042444444000,
   283148602502222000, 0, 0, 0, 0, 0, 0, 0, 0, 0, 0, 0, 0, 0, 0, 0, 0, 0, 0, 0, 0, 0, 191812404582222000,
   288656874035556000, 226524333124444000, 0, 0, 0, 0, 0, 0, 0, 0, 0, 0, 0, 0, 0, 0, 0, 0, 0, 0, 0, 0, 0, 0, 0, 0, 0,
   0, 0, 0, 0, 0, 0, 0, 0, 0, 0, 0, 0, 0, 0, 0, 0, 0, 0, 0, 0, 0, 0, 0, 0, 0, 0, 0, 0, 0, 0, 0, 0, 0, 0, 0, 0, 0, 0,
   0, 0, 0, 0, 0, 0, 104856154417778000, 175482775342222000, 37686014177777800, 0, 0, 0, 0, 0, 0, 0, 0, 0, 0, 0, 0, 0,
   0, 0, 0, 0, 0, 0, 0, 0, 57733836604444400, 0, 0, 0, 0, 0, 0, 0, 0, 0, 0, 0, 0, 0, 0, 0, 0, 0, 0, 0, 0,
   32044395288888900, 27573507567555500, 258950893142222000, 372595957111111000, 282770247697778000,
   356992851155555000, 108644391600000000, 0, 0, 0, 0, 0, 0, 0, 0, 0, 0, 0, 0, 0, 0, 0, 0, 45179549417777800, 0,
   115219148906667000, 352549893111111000, 229334885080000000, 108751948697778000, 83754741346666700,
   174762699622222000, 103306394382222000, 0, 0, 0, 0, 0, 0, 0, 0, 0, 0, 0, 0, 0, 0, 0, 0, 0, 0, 1169931083422220,
   52121231755555500, 78589363013333300, 79132423782222200, 0, 0, 0, 0, 0, 0, 0, 0, 0, 0, 0, 0, 0, 33714607551111100,
   0, 0, 0, 0, 0, 0, 0, 0, 0, 0, 0, 0, 0, 0, 0, 0, 0, 0, 0, 0, 0, 0, 0, 0, 0, 0, 0, 0, 0, 0, 0, 0, 0, 0, 0, 0, 0, 0,
   0, 0, 0, 0, 0, 0, 0, 0, 0, 0, 0, 0, 0, 0, 0, 0, 9048277484444450, 263932222817778000, 249932215840000000,
   242519861297778000, 0, 0, 0, 0, 0, 0, 0, 0, 0, 0, 0, 0, 0, 0, 0, 0, 0, 47450264386666700, 11949710791555600,
   138799064364444000, 359908908711111000, 172049740346667000, 180129417808889000, 173945910435556000,
   150630931262222000, 207968535724444000, 0, 0, 0, 0, 0, 0, 0, 0, 0, 0, 0, 0, 0, 0, 0, 0, 182188242364444000,
   167170106346667000, 38353923240000000, 96650163306666700, 170473603911111000, 259130545733333000,
   159264513124445000, 20556740411111100, 19678640748000000, 150315586746667000, 128853989280000000, 0, 0, 0, 0, 0, 0,
   0, 0, 138301136546667000, 0, 0, 166762444431111000, 218866971133333000, 138863246937778000, 179715308328889000,
   328641151866667000, 666103744177778000, 823808239777778000, 992165870266667000, 545024345333333000,
   181604151640000000, 60283555271111100, 7042176421777780, 19016681029333300, 0, 0, 0, 0, 0, 0, 0, 0,
   2388327336488890, 53252486244444500, 376051265511111000, 299375070711111000, 265447400462222000,
   201543244684444000, 217403667075556000, 264309405337778000, 221400277817778000, 239041693351111000,
   281288773231111000, 251464098537778000, 103710246373333000, 94117442764444500, 131105947697778000,
   103954081537778000, 0, 0, 0, 0, 0, 0, 0, 0, 7781565528000000, 23909679072000000, 44828157155555600,
   95049995040000000, 156194886306667000, 202311090995555000, 111640164497778000, 103390212720000000,
   103373800737778000, 160614398662222000, 147212549822222000, 4242731861333330, 0, 0, 0, 0, 0, 0, 0, 0, 0, 0, 0, 0,
   0, 0, 0, 0, 0, 0, 0, 0, 0, 0, 0, 0, 0, 0, 0, 0, 0, 0, 0, 0, 0, 0, 0, 0, 0, 0, 0, 0, 0, 0, 0, 91357005968888900,
   113552160426667000, 121264619786667000, 116385865000000000, 72019880986666700, 0, 0, 0, 0, 0, 0, 0, 0, 0, 0, 0, 0,
   107974431040000000, 0, 154958126217778000, 272063773866667000, 344308733466667000, 528281192755556000,
   838810549955556000, 1207611236177780000, 1436684408755560000, 1484616188977780000, 1458471315155550000,
   942926992888889000, 502192002444444000, 290667048786667000, 143926343453333000, 3328115537777780, 0, 0, 0, 0, 0, 0,
   0, 0, 5321145628888890, 122984067995556000, 315467605422222000, 209947058795555000, 157528359862222000,
   305104610933333000, 617430494044444000, 1042867172488890000, 1051879109155560000, 978127764044445000,
   1007587272133330000, 490999616711111000, 154893943644444000, 87172536644444400, 47450850528888900,
   44235567368888900, 0, 0, 0, 0, 0, 0, 0, 0, 84903873173333400, 0, 61483388400000000, 200884127755556000,
   336683023155556000, 380834186044444000, 387539653066667000, 489009663866667000, 507563995911111000,
   744980903022222000, 918039394133333000, 502540757066667000, 156984712951111000, 46329267386666700,
   71892688124444400, 280439453151111000, 0, 0, 0, 0, 0, 0, 0, 0, 0, 0, 0, 97063686644444400, 290238578822222000,
   394092723111111000, 430128746933333000, 560269904533333000, 645175536133333000, 858188411822222000,
   1023703252533330000, 624004079066667000, 229771854106667000, 74068154982222200, 43351078755555600,
   223142878644444000, 0, 0, 0, 0, 0, 0, 0, 0, 36698071462222200, 0, 0, 0, 1692784599200000, 181853848226667000,
   217620832768889000, 253891606551111000, 318181443911111000, 299934836533333000, 252754490640000000,
   460877767911111, 0, 0, 0, 0, 0, 0, 0, 0, 0, 0, 0, 0, 0, 0, 0, 0, 0, 0, 0, 107830240053333000, 149725927671111000,
   150312362964444000, 191115188408889000, 147321279204444000, 17553728656888900, 0, 0, 0, 0, 0, 0, 0, 0, 0, 0, 0,
   5975661341333330, 101142943440000000, 282042845200000000, 257360396222222000, 431488596888889000,
   670775297688889000, 961358235066667000, 1242987850000000000, 1338391288800000000, 1524095798355560000,
   1569744554622220000, 1204618980133330000, 729884810088889000, 481128981688889000, 268002101337778000,
   88798202097777800, 0, 0, 0, 0, 0, 0, 0, 0, 7781565528000000, 128639754297778000, 284492040475556000,
   243725262777778000, 687996156177778000, 1074178890000000000, 1274850541200000000, 1606117610222220000,
   1636588213644440000, 1633203242311110000, 1685835883155560000, 1234400866444440000, 804899291688889000,
   583270125333333000, 448313809377778000, 278233799968889000, 0, 0]

/-- Atlanta_Office_Building_Loads.csv:1418-2161. -/
def march : List Nat :=
  [0, 0, 0, 0, 0, 0, 7781565528000000, 79408789840000000, 539798887422222000, 468380388355556000, 423540508355556000,
   246540503871111000, 361679058222222000, 240549251146667000, 197377531911111000, 212607265271111000,
   237801123337778000, 195638741008889000, 268051630355556000, 272411063133333000, 81678332524444400,
   25917802325333300, 0, 0, 0, 0, 0, 0, 0, 0, 93918447480000000, 0, 303105865955556000, 293897571644444000,
   326012304000000000, 402032019511111000, 431731845911111000, 621020615155556000, 873111592800000000,
   877897444044444000, 791353544933333000, 470499292488889000, 130726713680000000, 53918929951111100,
   48082125702222200, 122961501520000000, 0, 0, 0, 0, 0, 0, 0, 0, 161173871413333000, 0, 252930919448889000,
   234444872973333000, 199976193453333000, 405326138800000000, 485935347911111000, 951490530755556000,
   1112934613733330000, 1305916078977780000, 1368923437155560000, 897802833911111000, 511538040177778000,
   272192139013333000, 109329884928889000, 29548308635555500, 0, 0, 0, 0, 0, 0, 0, 0, 140429418955556, 0,
   119743580720000000, 195413955466667000, 238722245840000000, 115784190008889000, 4998855328000000,
   239410669880000000, 379190057111111000, 532117493600000000, 608559231511111000, 0, 0, 0, 0, 0, 0, 0, 0, 0, 0, 0, 0,
   0, 0, 0, 0, 0, 0, 0, 0, 53590397235555600, 87353654591111100, 91331215711111100, 115305897955556000,
   67060531644444500, 0, 0, 0, 0, 0, 0, 0, 0, 0, 0, 0, 0, 102404028431111000, 0, 74998069617777800,
   252639899835556000, 190235095862222000, 396196973688889000, 415692064000000000, 591127361822222000,
   1027290442933330000, 1167653920888890000, 1218434352311110000, 847872308711111000, 418057147866667000,
   225214305257778000, 58765153844444400, 22665885276444400, 0, 0, 0, 0, 0, 0, 0, 0, 208777118920000000, 0,
   80371821511111100, 248680509124445000, 351940305200000000, 259736909862222000, 340821187244444000,
   382660019066667000, 498792377555556000, 709111929733333000, 994012218266667000, 591833663200000000,
   242958002608889000, 104533483124444000, 39827777857777800, 13687417330666700, 0, 0, 0, 0, 0, 0, 0, 0,
   42753506760000000, 0, 302279405422222000, 318310395200000000, 544452856666667000, 1021552110577780000,
   1241337859644440000, 1625029489022220000, 1838203553822220000, 1882433845911110000, 1935295082222220000,
   1424167341600000000, 905369930000000000, 626336925111111000, 416269414088889000, 253910363102222000, 0, 0, 0, 0, 0,
   0, 0, 0, 7459978597777780, 188801978128889000, 481855798044445000, 1007625371377780000, 1425685449955560000,
   1537292790488890000, 1605414239555560000, 1817621169688890000, 1851637933555560000, 1878248790444440000,
   1773836345688890000, 1143024224711110000, 652830553555556000, 337963743911111000, 162879545280000000,
   49997345413333300, 0, 0, 0, 0, 0, 0, 0, 0, 7781565528000000, 0, 433525441111111000, 213199561986667000,
   331088295644444000, 528272400622222000, 658958670488889000, 1154656217111110000, 1311229458222220000,
   1451112299555560000, 1453257580088890000, 1075940247377780000, 649659524133333000, 497775420800000000,
   263876246235556000, 137706788333333000, 0, 0, 0, 0, 0, 0, 0, 0, 7781565528000000, 123704436786667000,
   95924226164444500, 78488839622222200, 135150329031111000, 425225667244445000, 538447829600000000,
   831738744044445000, 1036809392622220000, 1069604049955560000, 1029637942533330000, 0, 0, 0, 0, 0, 0, 0, 0, 0, 0, 0,
   0, 0, 0, 0, 0, 0, 0, 0, 0, 88734605666666700, 110651049497778000, 158542972048889000, 125391647173333000,
   92054222142222200, 19984225995555600, 0, 0, 0, 0, 0, 0, 0, 0, 0, 0, 6361811837333330, 163824406542222000,
   475094647511111000, 263903794920000000, 360855528400000000, 716444568933333000, 930421648577778000,
   1342248104622220000, 1532691574044440000, 1733430631600000000, 1947158600800000000, 1732703815244440000,
   1353279301244450000, 1094942978222220000, 896944135555556000, 662249859066667000, 0, 0, 0, 0, 0, 0, 0, 0,
   925518568888889, 253403936222222000, 486585965777778000, 627972261911111000, 1169702487955560000,
   1560334041244440000, 1709674287333330000, 1917669785600000000, 1844152897377780000, 1805529055644450000,
   1789782344844450000, 1434653425955560000, 876147809511111000, 496389194444444000, 259345073786667000,
   43317668648888900, 0, 0, 0, 0, 0, 0, 0, 0, 7781565528000000, 0, 366749188444444000, 334265186488889000,
   346588826711111000, 334001422488889000, 456745465244444000, 571236625511111000, 993886197688889000,
   1129408140888890000, 1319643529822220000, 1014483235377780000, 751683439333333000, 524954835644444000,
   281432378075555000, 65049770751111100, 0, 0, 0, 0, 0, 0, 0, 0, 28026536891111100, 0, 295509462755556000,
   314582530666667000, 351213488844444000, 245937949666667000, 214421961591111000, 226258517626667000,
   206601652062222000, 205684925626667000, 224198520786667000, 197392185466667000, 103129086360000000,
   243706213155556000, 174355037706667000, 7965790028444440, 0, 0, 0, 0, 0, 0, 0, 0, 93716228413333300, 0,
   180922761306667000, 321625029466667000, 277748181137778000, 284819987048889000, 207778625644444000,
   208748397951111000, 301010407511111000, 492980777422222000, 873940984044445000, 620915109555556000,
   357156970977778000, 165685994240000000, 64758458066666700, 76939665728888900, 0, 0, 0, 0, 0, 0, 0, 0,
   169265857862222000, 0, 0, 0, 0, 42225392617777800, 24208787448000000, 28058452335111100, 138186252671111000,
   186783304315556000, 213167031093333000, 0, 0, 0, 0, 0, 0, 0, 0, 0, 0, 0, 0, 0, 0, 0, 0, 0, 0, 0, 0, 0, 0, 0, 0, 0,
   40859681240000000, 19238477246222200, 0, 0, 0, 0, 0, 0, 0, 0, 0, 0, 230259524435556000, 0, 0, 107845186680000000,
   153432691084445000, 243772154155555000, 390611038311111000, 588993804133333000, 898239509866667000,
   1125272907511110000, 1234034527555560000, 885279905333333000, 548054700622222000, 318556574933333000,
   131814593644444000, 37588714568888900, 0, 0, 0, 0, 0, 0, 0, 0, 0, 101765426480000000, 358505098088889000,
   299676933955556000, 239272926457778000, 234400619235556000, 189718997635556000, 215121522333333000,
   196820989871111000, 202294972084444000, 227858978964444000, 209698241422222000, 68638426506666700,
   260561611968889000, 137304987840000000, 22803042556444500, 0, 0, 0, 0, 0, 0, 0, 0, 51116877057777800, 0, 0, 0, 0,
   0, 0, 102462056511111000, 170961567311111000, 241038972973333000, 266238985533333000, 0, 0, 0, 0, 0, 0, 0, 0, 0, 0,
   0, 0, 0, 0, 0, 0, 0, 98740346471111100, 272547048128889000, 171666989475556000, 216975490182222000,
   303891296533333000, 449084586400000000, 774276291288889000, 594019973688889000, 345319828800000000,
   157074392711111000, 60976668448888900, 19755454686222200, 0, 0, 0, 0, 0, 0, 0, 0, 0, 0, 371778288711111000,
   402541963244445000, 288351200866667000, 217155728915556000, 336313753555556000, 416225453422222000,
   576933927911111000, 828456347600000000, 951672234844444000, 708030497333333000, 414765959288889000,
   207902008582222000, 57618073515555600, 14211516398666700, 0, 0, 0, 0, 0, 0, 0, 0, 211992109008889000, 0, 0, 0,
   15400740353333300, 85069165280000000, 73914878791111100, 206999935702222000, 182066617853333000,
   194423375111111000, 211456081946667000, 3347135852888890, 25818890825333300, 0, 0, 0, 0, 0, 0, 0, 0, 0, 0, 0, 0, 0,
   0, 0, 0, 0, 0, 0, 0, 71181111466666700, 81661334400000000, 103630531031111000, 83933807795555600,
   51651438764444400, 0, 0, 0, 0, 0, 0, 0, 0, 0, 0, 6483172584444450, 54967831457777800, 283832044333333000,
   156982954524444000, 258458240604444000, 557485728977778000, 883870233288889000, 1221584866755560000,
   1287651887333330000, 1410179057466670000, 1535402481822220000, 1044901086000000000, 645424646577778000,
   444931768755556000, 339599080711111000, 231967249800000000, 0, 0, 0, 0, 0, 0, 0, 0, 7781565528000000,
   176078881982222000, 330153398800000000, 434943905288889000, 827565411422222000, 1134522231777780000,
   1298378290000000000, 1667624444311110000, 1796212325022220000, 1871977068666670000, 1954157138933330000,
   1716552666311110000, 1237665678622220000, 1083225995200000000, 909695659600000000, 704991349911111000, 0, 0, 0, 0,
   0, 0, 0, 0, 7781565528000000, 320649102666667000, 968412456711111000, 1246498841911110000, 1384485513155560000,
   1726991859288890000, 1574741417066670000, 1993299716533330000, 2061570631866670000, 2207739848533330000,
   2414375496844440000, 2017609965200000000, 1634322773955550000, 1406536183555560000, 1117641335777780000,
   926664476933333000, 0, 0, 0, 0, 0, 0, 0, 0, 7781565528000000, 531897690266667000, 1355896426266670000,
   1395754097377780000, 1567332579377780000, 1926198154933330000, 2114217926266670000, 2366168229777780000,
   2418850692711110000, 2436156541822220000, 2498571896355560000, 2207602105111110000, 1757535730488890000,
   1430034625244440000, 1199340769422220000, 987570515244444000, 0, 0, 0, 0, 0, 0, 0, 0, 15501117208888900,
   555416646933333000, 1423847894088890000, 1507572449111110000, 1614774930844440000, 1840392795022220000,
   1303457212355560000, 1179998076088890000, 1209082453155560000, 1305962970355560000, 1592038474044440000,
   1189024666311110000, 765150056888889000, 537492417777778000, 243792082991111000, 90722507013333300, 0, 0, 0]

/-- Atlanta_Office_Building_Loads.csv:2162-2881. -/
def april : List Nat :=
  [0, 0, 0, 0, 0, 7781565528000000, 75441779280000000, 205529304866667000, 181025336195556000, 145850355297778000,
   178442500493333000, 140041099733333000, 117840376924445000, 62019708533333300, 55511185297777800,
   57432266431111100, 7284341080888890, 0, 0, 0, 0, 0, 0, 0, 0, 0, 0, 0, 0, 0, 0, 0, 0, 0, 0, 0, 0, 0, 0, 0, 0, 0, 0,
   0, 0, 0, 0, 0, 0, 0, 0, 0, 0, 18605472953333300, 613198547200000000, 1024456445288890000, 1060636073955560000,
   1100479091511110000, 1135178711066670000, 1142200694888890000, 1368234720044450000, 1472477183555560000,
   1455613871822220000, 1524374215911110000, 1148536892311110000, 808325292977778000, 582640022444445000,
   334332592844444000, 167291437786667000, 0, 0, 0, 0, 0, 0, 0, 0, 7781565528000000, 236503697528889000,
   939618220044444000, 1402781942622220000, 1588893821022220000, 1889502721111110000, 1848578271155560000,
   2159649809911110000, 2340213852177780000, 2369638191733330000, 2346822605733330000, 1927399746488890000,
   1490864465066670000, 1245464300888890000, 1078911988444440000, 731930446444444000, 0, 0, 0, 0, 0, 0, 0, 0,
   7781565528000000, 192165555271111000, 317337399111111000, 243825786168889000, 230338360564444000,
   228148533222222000, 239076861884444000, 333435795244445000, 367001229600000000, 427192174400000000,
   488745899866667000, 365319001422222000, 205226269337778000, 385057340755556000, 153634910151111000, 0, 0, 0, 0, 0,
   0, 0, 0, 0, 0, 0, 0, 0, 220283676884444000, 418769310666667000, 293118002488889000, 406521868933333000,
   423944946488889000, 692125528133333000, 804201782444445000, 633816099866667000, 387774109955555000,
   192104889551111000, 72420509195555600, 173276536017778000, 0, 0, 0, 0, 0, 0, 0, 0, 19614458174666700, 0, 0,
   273770033875556000, 262072100475556000, 350680099422222000, 493159550800000000, 1035147679422220000,
   1261873352400000000, 1529708110133330000, 1710761581155560000, 1356884075911110000, 1026844974844450000,
   723958912222222000, 317589440266667000, 155231268493333000, 0, 0, 0, 0, 0, 0, 0, 0, 2132212492488890,
   155960429417778000, 76694951351111100, 112001521177778000, 280044100222222000, 423300190044445000,
   496937237422222000, 657628127644445000, 844176682000000000, 930096339644445000, 985126302177778000,
   42280196915555600, 114459801657778000, 92177605080000000, 26969781078666700, 0, 0, 0, 0, 0, 0, 0, 0, 0, 0, 0, 0, 0,
   24086547487555600, 51470320817777800, 46693261706666700, 23534137750222200, 101603944297778000, 127878355551111000,
   199952454693333000, 219856672275555000, 190342359888889000, 97057239080000000, 33658044826666700, 0, 0, 0, 0, 0, 0,
   0, 0, 0, 0, 180130590093333000, 382531067777778000, 484554982977778000, 910003384266667000, 1224410072266670000,
   1398122111955560000, 1677251830311110000, 1875813369511110000, 1972890244355560000, 2045990971600000000,
   1871886216622220000, 1337049023111110000, 955945211644445000, 654266602000000000, 435304382755556000, 0, 0, 0, 0,
   0, 0, 0, 0, 7781565528000000, 139158662617778000, 562810831066667000, 703880610400000000, 1238758833866670000,
   1567939236577780000, 1782074574622220000, 2080705244711110000, 2096466609066670000, 2326193330222220000,
   2251970140622220000, 1995811335955560000, 1457181802266670000, 1141799187466670000, 835701065466667000,
   670959932488889000, 0, 0, 0, 0, 0, 0, 0, 0, 1245282596800000, 257773040346667000, 733343049200000000,
   1037178662222220000, 1522413570177780000, 1895578085244440000, 1987889623822220000, 2205427517466670000,
   2363222865111110000, 2378705811911110000, 2363404569200000000, 2021361275422220000, 1477843315600000000,
   1245519984400000000, 834854089955556000, 586584759600000000, 0, 0, 0, 0, 0, 0, 0, 0, 841114088888889,
   221667558671111000, 660213014844444000, 970159160533333000, 1497112741155560000, 1904414179244450000,
   2028673399644440000, 2118376605333330000, 2109484827822220000, 2184730835600000000, 2191491986133330000,
   1882665372088890000, 1467433429733330000, 1117348264666670000, 807202830622222000, 556454118666667000, 0, 0, 0, 0,
   0, 0, 0, 0, 0, 237185087862222000, 678160689688889000, 997699052844444000, 1410929319511110000,
   1744904365600000000, 1923938576666670000, 2061796296622220000, 2160007356666670000, 2290506061022220000,
   2298946509022220000, 1947820941511110000, 1544118416666670000, 1176686372533330000, 872036021822222000,
   630217186622222000, 0, 0, 0, 0, 0, 0, 0, 0, 7781565528000000, 134000904133333000, 175685287480000000,
   340446056222222000, 596581415200000000, 961138431733333000, 1056524286266670000, 1134824095022220000,
   1239869573377780000, 1315818951822220000, 1400226362533330000, 64663503026666700, 99871600960000000,
   70947533791111100, 23457499654666700, 0, 0, 0, 0, 0, 0, 0, 0, 0, 0, 0, 0, 27139146873777800, 81686538515555500,
   109053811942222000, 152854168711111000, 235106920613333000, 334772199511111000, 383685767955556000,
   414250154133333000, 549986039244445000, 287397547471111000, 162235374977778000, 25603454251555600, 0, 0, 0, 0, 0,
   0, 0, 0, 0, 175506807173333000, 890994792000000000, 1541724025688890000, 1710541777822220000, 1961697858622220000,
   2239244992977780000, 2264091561777780000, 2421549877644440000, 2483124118088890000, 2484038499955560000,
   2542210184800000000, 2257793463600000000, 1766445092266670000, 1497320821644440000, 1177424911733330000,
   809099000711111000, 0, 0, 0, 0, 0, 0, 0, 0, 0, 419710068933333000, 1347995229111110000, 1484261572933330000,
   1777350268311110000, 2100868537155560000, 2189355497733330000, 2317536009600000000, 2264701149688890000,
   2305136170888890000, 2271427131688890000, 1877252348666670000, 1500318939111110000, 1126386577733330000,
   985038380844444000, 749271464088889000, 0, 0, 0, 0, 0, 0, 0, 0, 18776567868000000, 427028054577778000,
   1131020032000000000, 1369075834133330000, 1716168743155560000, 2021138541377780000, 2193435047600000000,
   2376082825466670000, 2360171994844450000, 2530953323422220000, 2344237718533330000, 2001057308844440000,
   1437276412400000000, 1252723672311110000, 1013691943377780000, 729108171644445000, 0, 0, 0, 0, 0, 0, 0, 0,
   1259467238577780, 333699559244445000, 630911765155556000, 1014489096800000000, 1431866319688890000,
   1742413261155560000, 1855869880400000000, 2056236737644450000, 2177064095333330000, 2222970754177780000,
   2317908209911110000, 1734482756888890000, 1298697737511110000, 1095587734666670000, 763631948533333000,
   577607991466667000, 0, 0, 0, 0, 0, 0, 0, 0, 2100129997955560, 341363368800000000, 887337264533333000,
   1057755184933330000, 1441974342311110000, 1671621934266670000, 1731976998888890000, 2047743536844440000,
   2096372826311110000, 2222466671866670000, 2149295607555550000, 1783091531377780000, 1370699448088890000,
   1142921649822220000, 839285325155556000, 686138085333333000, 0, 0, 0, 0, 0, 0, 0, 0, 7781565528000000,
   263244677991111000, 289088860853333000, 353470136400000000, 681191044977778000, 955728339022222000,
   958210651333333000, 995383791066667000, 992939578000000000, 1085110442444440000, 1053288781200000000, 0, 0, 0, 0,
   0, 0, 0, 0, 0, 0, 0, 0, 0, 0, 0, 0, 0, 0, 0, 0, 0, 94677208586666700, 190825341080000000, 278726159435556000,
   315359169111111000, 242815863120000000, 68885192382222200, 30462690502222200, 0, 0, 0, 0, 0, 0, 0, 0, 0,
   168942893497778000, 821261451822222000, 1426928071466670000, 1241516633022220000, 1444072731466670000,
   1646335758800000000, 1559929603111110000, 1804682080133330000, 1737225902488890000, 1798691706622220000,
   1860304046311110000, 1477488699555560000, 1152944681822220000, 853083113066667000, 491113914444445000,
   200279228982222000, 0, 0, 0, 0, 0, 0, 0, 0, 0, 251553485226667000, 487122285911111000, 483441312755556000,
   561275138444445000, 863100283644445000, 1023017466133330000, 1275782507333330000, 1409109347911110000,
   1449057871066670000, 1462676885600000000, 1081836838133330000, 732346607422222000, 455268386844444000,
   188200596208889000, 55039340808888900, 0, 0, 0, 0, 0, 0, 0, 0, 201604496546667000, 0, 402621092444444000,
   419932802977778000, 345167431822222000, 363859507288889000, 463316119555556000, 620197085333333000,
   854949976044444000, 938489896266667000, 1086124468488890000, 824693314533333000, 546055955644445000,
   368692249911111000, 90145449995555600, 52777417973333300, 0, 0, 0, 0, 0, 0, 0, 0, 236191576795556000, 0,
   360090612800000000, 336451496977778000, 305916417911111000, 420003140044444000, 763819514044445000,
   1129006633466670000, 1328696496444440000, 1445045727555560000, 1551785156933330000, 1285489022533330000,
   962970126177778000, 633986081111111000, 272948555551111000, 109676294982222000, 0, 0, 0, 0, 0, 0, 0, 0, 0,
   62824481804444400, 354868085600000000, 476237624844444000, 613714352355556000, 1099057696622220000,
   1387471907777780000, 1707590551733330000, 1760088379866670000, 2053039331822220000, 2058730772800000000,
   1640550535066670000, 1285102168666670000, 1006028133822220000, 718982564755556000, 450922142266667000, 0, 0, 0, 0,
   0, 0, 0, 0, 7781565528000000, 105823582155556000, 124952333577778000, 148208698528889000, 147612298817778000,
   330027378222222000, 551597930355556000, 695413786000000000, 896818114977778000, 1044203576755560000,
   1066383198444440000, 0, 0, 0, 0, 0, 0, 0, 0, 0, 0, 0, 0, 0, 0, 0, 0, 0, 0, 0, 0, 0, 0, 31970248297777800,
   114832001968889000, 127264371573333000, 27820097600444400, 0, 0, 0, 0, 0, 0]

/-- Atlanta_Office_Building_Loads.csv:2882-3625. -/
def may : List Nat :=
  [0, 0, 0, 0, 0, 177671430400000000, 854574845022222000, 1523459834044440000, 1521827427955560000,
   1586449607955560000, 1756213979777780000, 1755328905022220000, 2010696417688890000, 2154928434311110000,
   2223993572355560000, 2320745138266670000, 2004846718311110000, 1569929189422220000, 1342060539111110000,
   999237676177778000, 762494832622222000, 0, 0, 0, 0, 0, 0, 0, 0, 0, 363074076711111000, 1178438937777780000,
   1380704895822220000, 1688285957644440000, 1964962670800000000, 2116832120577780000, 2290623289466670000,
   2354040947200000000, 2411664589066670000, 2433263929955560000, 2002915379688890000, 1563346812266670000,
   1267928201555560000, 1052808144577780000, 809538607377778000, 0, 0, 0, 0, 0, 0, 0, 0, 14621434961777800,
   408983666266667000, 1263775383911110000, 1610880015777780000, 1820033144933330000, 2191559392488890000,
   2251981863466670000, 2423961852888890000, 2397154638355560000, 2784600508666670000, 2591894530266670000,
   2175285153688890000, 1748233653422220000, 1320994587644450000, 1074003047333330000, 876555178355556000, 0, 0, 0, 0,
   0, 0, 0, 0, 2844882305511110, 365149020177778000, 1101906347822220000, 1556679444488890000, 1923950299511110000,
   2211942488266670000, 2315478650400000000, 2414914747688890000, 2438577309200000000, 2509858064844440000,
   2566306491555560000, 2128018644888890000, 1691005657555560000, 1365289355377780000, 992060364666667000,
   822463043377778000, 0, 0, 0, 0, 0, 0, 0, 0, 3822497195111110, 368237989688889000, 1252398363377780000,
   1691108232444440000, 1952782635422220000, 2187928241422220000, 2353021059733330000, 2527667996266670000,
   2656381897555550000, 2717038825422220000, 2778223281288890000, 2392275004355560000, 1896592111288890000,
   1652540074222220000, 1240634488977780000, 1029807923777780000, 0, 0, 0, 0, 0, 0, 0, 0, 46115911617777800,
   640867390800000000, 1056653237555560000, 1316308380577780000, 1548022123866670000, 1785181128400000000,
   1652109259688890000, 1715321767644440000, 1733172729022220000, 1819816272311110000, 1852165461555560000,
   103252469297778000, 134207519266667000, 128418778680000000, 76014147160000000, 32333070333333300, 0, 0, 0, 0, 0, 0,
   0, 0, 0, 0, 72557373404444400, 120591435444445000, 185566473062222000, 187479934346667000, 310212840400000000,
   364102756311111000, 184861637040000000, 268367561013333000, 224986002862222000, 327076152133333000,
   194653435933333000, 53401659440000000, 0, 0, 0, 0, 0, 0, 0, 0, 0, 245639310204444000, 689405828222222000,
   1484557574755560000, 2111146541022220000, 2349929159511110000, 2444837308133330000, 2669174451555560000,
   2595200372400000000, 2871071140000000000, 2907769504533330000, 3135655739111110000, 2991464752444440000,
   2660438001733330000, 2099669876311110000, 1823995466355560000, 1429369353822220000, 1090834121244440000, 0, 0, 0,
   0, 0, 0, 0, 0, 73506923804444400, 605587490444445000, 1363982258222220000, 1402485940800000000,
   1416019964711110000, 1622450463244440000, 1656540494888890000, 1893312645555560000, 1858724393022220000,
   1913604889288890000, 1922376507644440000, 1527653681644440000, 1169752310044440000, 865485882488889000,
   504384174355556000, 220272833253333000, 0, 0, 0, 0, 0, 0, 0, 0, 0, 255778984506667000, 391578172977778000,
   459878395422222000, 566257347333333000, 939163959822222000, 1026220733377780000, 1403414976222220000,
   1519093074488890000, 1694824374133330000, 1777405951822220000, 1423918231155560000, 1124985697822220000,
   909103655955556000, 508507684888889000, 263652926048889000, 0, 0, 0, 0, 0, 0, 0, 0, 7781565528000000,
   186370660191111000, 368264366088889000, 405628002044444000, 712581891688889000, 1297674919333330000,
   1409628083777780000, 1645934251377780000, 1735663833466670000, 1757351095688890000, 1952920378844440000,
   1601824118444440000, 1224878986044440000, 908995219644445000, 671414192711111000, 389057761422222000, 0, 0, 0, 0,
   0, 0, 0, 0, 0, 170733851057778000, 377792107911111000, 630410613555555000, 1162577929244450000,
   1432683988088890000, 1580084103422220000, 1769214614266670000, 1908048261022220000, 1982942583466670000,
   2124094422711110000, 1786077926000000000, 1395780473777780000, 1115449163866670000, 770366722666667000,
   561181355688889000, 0, 0, 0, 0, 0, 0, 0, 0, 7781565528000000, 143504614124445000, 214256376413333000,
   359135200977778000, 551735673777778000, 849413862755556000, 861415124755556000, 964186371288889000,
   1070263459955560000, 1154717762044440000, 1267007958266670000, 45831046497777800, 112009141026667000,
   95158724422222200, 31323147284444400, 0, 0, 0, 0, 0, 0, 0, 0, 0, 0, 0, 0, 0, 68696454586666700, 82917730253333300,
   84910320737777800, 75996562893333300, 158146446835556000, 184626300937778000, 180715853102222000,
   247126353022222000, 166399329324444000, 27303471845777800, 0, 0, 0, 0, 0, 0, 0, 0, 0, 0, 109564341817778000,
   746457981422222000, 1373729803377780000, 1613957262444440000, 1921318520933330000, 2156648761733330000,
   2267256729777780000, 2493575033911110000, 2478713397866670000, 2546401101688890000, 2618514179288890000,
   2222120847955560000, 1808190141333330000, 1531624795200000000, 1210245945466670000, 967163973777778000, 0, 0, 0, 0,
   0, 0, 0, 0, 39074292031111100, 718370046133333000, 1738286819911110000, 1690114721377780000, 2061462195555560000,
   2344700770888890000, 2325809407066670000, 2564002952622220000, 2516460956977780000, 2682309898755560000,
   2619449076133330000, 2360640908622220000, 1853120873377780000, 1668620886088890000, 1321815186755560000,
   1075439095777780000, 0, 0, 0, 0, 0, 0, 0, 0, 58962683773333300, 654474682488889000, 1494492685422220000,
   1741419750088890000, 1984671703022220000, 2298058503555560000, 2348255723466670000, 2553185697911110000,
   2527984513066670000, 2586390654800000000, 2635453689511110000, 2364919746844440000, 1873377948577780000,
   1584406902311110000, 1340820848311110000, 1177518694488890000, 0, 0, 0, 0, 0, 0, 0, 0, 32343620893333300,
   812598269777778000, 1772227385288890000, 1991139782444440000, 2146361965733330000, 2381774266444440000,
   2500506165688890000, 2580464756933330000, 2590728107244450000, 2598233658400000000, 2735027530222220000,
   2420324840400000000, 1934972704000000000, 1678687878755560000, 1442293789822220000, 1100188951111110000, 0, 0, 0,
   0, 0, 0, 0, 0, 65119521675555600, 1029796200933330000, 1761248941466670000, 2049566439155560000,
   2248189523288890000, 2549135455155560000, 2508295995822220000, 2646487816844440000, 2609302954266670000,
   2762804810133330000, 2901219365200000000, 2515517268000000000, 2094464933377780000, 1780937458711110000,
   1396551250800000000, 1090655347866670000, 0, 0, 0, 0, 0, 0, 0, 0, 72108681533333300, 634413964933333000,
   960098029288889000, 1278074323422220000, 1551181430444440000, 1718419529288890000, 1733632850666670000,
   1766928659600000000, 1742987680533330000, 1756041067822220000, 1724576953333330000, 4497703728000000,
   32712011280000000, 0, 0, 0, 0, 0, 0, 0, 0, 0, 0, 0, 0, 0, 29467714080000000, 76078915875555600, 97614367262222200,
   152274180982222000, 168471635151111000, 308006014933333000, 359337420044444000, 419208917333333000,
   692113805288889000, 734122618355556000, 362948056133333000, 355521634177778000, 135402663257778000,
   65507547826666700, 30447743875555600, 0, 0, 0, 0, 0, 0, 278645271808889000, 871209561288889000,
   1547034474222220000, 2209372254622220000, 2346860704977780000, 2511959384711110000, 2634046948177780000,
   2647367030177780000, 2795435347644450000, 2839357915066670000, 2767576007822220000, 2757822601244440000,
   2340084900888890000, 1750334973288890000, 1429096797688890000, 1141690751155560000, 979317632755556000, 0, 0, 0, 0,
   0, 0, 0, 0, 127992946355556000, 912623440000000000, 1803981640177780000, 2003155698000000000, 2108368226888890000,
   2346652624488890000, 2494093769777780000, 2572097576711110000, 2746899840933330000, 2683675610133330000,
   2758194801555550000, 2389112767066670000, 1751973240800000000, 1467008476622220000, 1154084728444440000,
   989721657200000000, 0, 0, 0, 0, 0, 0, 0, 0, 122296816240000000, 934260880133333000, 1610809678711110000,
   1476559664133330000, 1655781440711110000, 1707194905733330000, 1659972357600000000, 1865936873066670000,
   1851670171377780000, 1914648222444450000, 1923197106755560000, 1513814863777780000, 1183995566044440000,
   1023893748755560000, 853648740311111000, 654128858577778000, 0, 0, 0, 0, 0, 0, 0, 0, 29614249635555600,
   467908543866667000, 1372519419688890000, 1462166941866670000, 1739966117377780000, 1937838939466670000,
   1888227861777780000, 2192353615200000000, 2140676386177780000, 2256008660533330000, 2295869262355560000,
   1859990460222220000, 1457419189866670000, 1251240732488890000, 989050524355556000, 745180191377778000, 0, 0, 0, 0,
   0, 0, 0, 0, 78521077444444500, 962636025111111000, 1723671363600000000, 1799638326311110000, 2191893493555550000,
   2121442129155550000, 2281221568222220000, 2583149288311110000, 2562039376177780000, 2721742616755560000,
   2873280896177780000, 2243154561600000000, 1459567401111110000, 1185396445955560000, 882914821466667000,
   709443100088889000, 0, 0, 0, 0, 0, 0, 0, 0, 33935583168888900, 399746064844444000, 564619079822222000,
   660992584000000000, 991210458444445000, 1145280872266670000, 1108937123777780000, 1306103644488890000,
   1400484265111110000, 1419548540888890000, 1490480541911110000, 13305750822666700, 64529862600000000,
   64943092866666700, 0, 0, 0, 0, 0, 0, 0, 0, 0, 0, 0, 0, 0, 0, 77372531760000000, 79927232635555600,
   79116304871111100, 212271405777778000, 324371105777778000, 397896786133333000, 416943477644444000,
   204012368795556000, 156378641893333000, 29620990271111100, 0, 0, 0, 0, 0, 0, 0, 0, 0, 0, 0, 0, 0, 0,
   107092580066667000, 207423716528889000, 424542811555556000, 708728006577778000, 790207636888889000,
   861333064844444000, 904722242844444000, 908731455644445000, 828983875600000000, 717555308444445000,
   245858234324445000, 109574892377778000, 31850968355555600, 0, 0, 0, 0, 0, 0, 558745934755556000,
   1210738304933330000, 2046181467822220000, 2619378739066670000, 2851112997333330000, 2991054452888890000,
   3071736929777780000, 3121822782666670000, 3130146002222220000, 3258335306222220000, 3286733896888890000,
   3371167684000000000, 2939386016000000000, 2472945758400000000, 2089658567155560000, 1839387561111110000,
   1559015221244450000, 0, 0, 0, 0, 0, 0, 0, 0, 539543915555556000, 1411489085333330000, 2142461189244440000,
   2430778686933330000, 2620448448622220000, 2818332993555560000, 2869456318177780000, 3122203775111110000,
   3072791985777780000, 3106436549333330000, 3107139920000000000, 2238512315200000000, 1896524704933330000,
   1613409219466670000, 1360749683866670000, 1235300594755560000, 0, 0, 0]

/-- Atlanta_Office_Building_Loads.csv:3626-4345. -/
def june : List Nat :=
  [0, 0, 0, 0, 0, 207657587275556000, 1302273205066670000, 2117591174755560000, 2243406602755560000,
   2432452122977780000, 2410477651066670000, 2637977031777780000, 2808236693777780000, 2788134946266670000,
   2776658281555560000, 2978628237777780000, 2668283515377780000, 2071614178844440000, 1857581415688890000,
   1409827372133330000, 1212634475022220000, 0, 0, 0, 0, 0, 0, 0, 0, 71361057128888900, 919314253466667000,
   1750953353333330000, 1839938534800000000, 2139184654222220000, 2291156678888890000, 2143489868844440000,
   2349304918044440000, 2494641812755560000, 2535194062400000000, 2564161211022220000, 2302853146933330000,
   1761996272800000000, 1571807775244440000, 1142089327866670000, 867865619911111000, 0, 0, 0, 0, 0, 0, 0, 0,
   61967834946666700, 734011251333333000, 1115733442844450000, 1325135682444440000, 1546785363777780000,
   1680164957155560000, 1580714206311110000, 1728202242977780000, 1748904786266670000, 1775761822888890000,
   1742419122577780000, 114504934608889000, 114178746462222000, 98900363297777800, 38587207844444500, 0, 0, 0, 0, 0,
   0, 0, 0, 0, 0, 0, 85561231675555600, 174451458102222000, 218192907577778000, 230072838137778000,
   376534832844445000, 519984349600000000, 778531683822222000, 846327823955556000, 909238468666667000,
   890270906355556000, 854023871333333000, 703953878177778000, 283934326151111000, 150044202897778000,
   59634109688888900, 0, 0, 0, 0, 0, 0, 577651952133333000, 1154172649777780000, 1928393257555560000,
   2558859554622220000, 2780576642311110000, 2941613356444440000, 2958552866666670000, 2907499879111110000,
   3080939362666670000, 3084807901333330000, 3115375218222220000, 3200688218666670000, 2909228998666670000,
   2447457363866670000, 2147736469244440000, 1805901255955560000, 1479085937111110000, 0, 0, 0, 0, 0, 0, 0, 0,
   323632566577778000, 1275805953022220000, 2252890383911110000, 2516522501911110000, 2876056279600000000,
   3075546854222220000, 3164112944000000000, 3247579596444450000, 3292185019555560000, 3352880046666670000,
   3406805131111110000, 3067487398666670000, 2527530252844440000, 1878319127511110000, 1468412287244450000,
   1223958742755560000, 0, 0, 0, 0, 0, 0, 0, 0, 25190575670222200, 574055969600000000, 1201166602444440000,
   1468242306000000000, 1598064016088890000, 1770126065422220000, 1787695678533330000, 2009679460933330000,
   2024840029511110000, 2095089174844440000, 2178520658755560000, 1772617169866670000, 1389860437333330000,
   1181979236800000000, 901803254577778000, 670025035644444000, 0, 0, 0, 0, 0, 0, 0, 0, 0, 304031970666667000,
   781245522311111000, 1115551738755560000, 1372399260533330000, 1604180410177780000, 1621588834177780000,
   1756911489022220000, 1855990039555560000, 2050902843422220000, 2062684302088890000, 1843824657733330000,
   1515596736133330000, 1330416823866670000, 960326624755556000, 721573313377778000, 0, 0, 0, 0, 0, 0, 0, 0,
   7816792675555560, 360187326266667000, 1114625634044440000, 1385994829377780000, 1763315092800000000,
   2082232145200000000, 2285450584355550000, 2520728072355550000, 2661841812355560000, 2703519455066670000,
   2837066098977780000, 2516082895244440000, 1924647808755560000, 1627271483022220000, 1317184663200000000,
   836879211333333000, 0, 0, 0, 0, 0, 0, 0, 0, 699420068088889, 167199413457778000, 278237609893333000,
   533251678800000000, 673867197911111000, 1021121296044440000, 1049215092755560000, 1136233767066670000,
   1284668423422220000, 1346641240577780000, 1413646088711110000, 48494476755555600, 113547178217778000,
   104944661893333000, 60170722893333300, 23428456307555600, 0, 0, 0, 0, 0, 0, 0, 0, 0, 0, 48705781026666700,
   120561249120000000, 157504621102222000, 173430105280000000, 169018212773333000, 332410046355556000,
   446397124311111000, 900965071200000000, 945063481288889000, 908077907066667000, 892521692488889000,
   773569989911111000, 301836868044444000, 219927595484444000, 68656596915555600, 33779083195555500, 0, 0, 0, 0, 0,
   894242019911111000, 1471463157511110000, 2095654802088890000, 2844460283111110000, 3002073926666670000,
   3150954051111110000, 3320466381777780000, 3357950176888890000, 3259507590666670000, 3328320687555550000,
   3500939572000000000, 3372750268000000000, 3104355744444440000, 2600792169200000000, 2420890467644440000,
   2148020748222220000, 1803890788133330000, 0, 0, 0, 0, 0, 0, 0, 0, 713053736177778000, 1784322430044440000,
   2607474190533330000, 2813849005555550000, 2994629920444440000, 3210916400444440000, 3266218919111110000,
   3258042235111110000, 3311381177333330000, 3259009369777780000, 3419465803111110000, 3100018292000000000,
   2533523557066670000, 2389268094755560000, 2115598291200000000, 1824622638533330000, 0, 0, 0, 0, 0, 0, 0, 0,
   863733317244444000, 1757087331688890000, 2346128027200000000, 2535170616711110000, 2598277619066670000,
   2903133119555560000, 2995186755555560000, 3138879521333330000, 3242949072888890000, 3124724186666670000,
   3143187666666670000, 2646382311244450000, 2134290366666670000, 1881885802933330000, 1698933231111110000,
   1653533585288890000, 0, 0, 0, 0, 0, 0, 0, 0, 709056246222222000, 1636787502000000000, 2302510253733330000,
   2369646983866670000, 2414970431200000000, 2612635172800000000, 2694188070888890000, 2700026047422220000,
   2716288563377780000, 2817732197777780000, 2820141242311110000, 2448676539688890000, 1913953643911110000,
   1677105294755560000, 1406149329688890000, 1248799450133330000, 0, 0, 0, 0, 0, 0, 0, 0, 472333917644444000,
   1523618092444440000, 2305250468622220000, 2483229623688890000, 2714697187244440000, 2811712517155560000,
   2825026737733330000, 3152595249333330000, 3047177570666670000, 2743034232977780000, 3162295903111110000,
   2748010580444440000, 2128593064266670000, 2002824527644440000, 1649398351911110000, 1456507738711110000, 0, 0, 0,
   0, 0, 0, 0, 0, 334086413111111000, 1201005413333330000, 1498079875822220000, 1663023227866670000,
   1937270381511110000, 2077214767777780000, 2021510741688890000, 1981597387066670000, 2124161829066670000,
   1792367232044450000, 1949280435644440000, 0, 0, 0, 0, 0, 0, 0, 0, 0, 0, 0, 0, 0, 0, 0, 0, 0, 0, 0,
   211984782231111000, 417221895200000000, 518524855466667000, 818286780044445000, 877205796222222000,
   883046703466667000, 428033288488889000, 318096453288889000, 210904522115556000, 34575357404444400, 0, 0, 0, 0, 0,
   0, 0, 673700147377778000, 1256984926266670000, 1987274174488890000, 2818746223822220000, 2801610355955560000,
   3077510430666670000, 3070300881333330000, 2937451746666670000, 3411230504888890000, 3480424594222220000,
   3453549973333330000, 3511665974666670000, 3071355937333330000, 2535109071777780000, 2347388232977780000,
   2003583581822220000, 1772939548088890000, 0, 0, 0, 0, 0, 0, 0, 0, 602138043466667000, 1491394923777780000,
   2328658058266670000, 2658656129377780000, 2929072843600000000, 3215927916444440000, 3058284965777780000,
   3293972753333330000, 3146557984444440000, 3342036415555560000, 3318444191111110000, 3047675791555560000,
   2577900384711110000, 2224084424400000000, 1645600150311110000, 1357540555200000000, 0, 0, 0, 0, 0, 0, 0, 0,
   357353328622222000, 1431795982622220000, 2337743262711110000, 2597577179111110000, 2816984866444450000,
   2950903710666670000, 3056204160888890000, 3160596090666670000, 3288345788000000000, 3350095871111110000,
   3302882115111110000, 3033754913777780000, 2461993690977780000, 2244499758000000000, 1911582698622220000,
   1697160150888890000, 0, 0, 0, 0, 0, 0, 0, 0, 560431093644444000, 1683930920933330000, 2523409673022220000,
   2624082530400000000, 2861804231466670000, 3068483840444440000, 3232046827555560000, 3302149437333330000,
   3173022305777780000, 2992314658666670000, 3260709182222220000, 3180700768888890000, 2475642012622220000,
   2279082149111110000, 2014945948800000000, 1329499511288890000, 0, 0, 0, 0, 0, 0, 0, 0, 579955491066667000,
   1581977342800000000, 2355195647377780000, 2675487203288890000, 2887327794533330000, 3142279146222220000,
   3289811143555560000, 3317242599555550000, 3422220671555560000, 3253177254666670000, 3498360546222220000,
   3227152540000000000, 2419554063377780000, 2072379094444440000, 1905395967466670000, 1573648261822220000, 0, 0, 0,
   0, 0, 0, 0, 0, 484607735777778000, 1420826330933330000, 1638120975555550000, 1862929963466670000,
   2040164717911110000, 2264369979333330000, 2284908402800000000, 2234186585600000000, 2152633687511110000,
   2231223636666670000, 2275512542977780000, 255841701724444000, 241850779951111000, 321393503288889000,
   86685159386666700, 47930901008888900, 34935248728888900, 0, 0, 0, 0, 0, 0, 0, 0, 0, 14689368845333300,
   125910089968889000, 296321269733333000, 589374796577778000, 869175647777778000, 938346291422222000,
   1028225339777780000, 1067318095288890000, 1123010398533330000, 1083542512000000000, 1023647569022220000,
   878381011377778000, 429993934222222000, 248603431422222000, 160430350004444000, 37975275364444400, 0, 0, 0, 0, 0,
   1222979885244440000, 1786376858533330000, 2433753358711110000, 3038707815555560000, 3070887023555550000,
   2939972158222220000, 3173989440444440000, 3228588588444440000, 3462547256444440000, 3470489483555550000,
   3545017467111110000, 3515505206222220000, 2710383180488890000, 2298653437911110000, 2035953286044450000,
   1787449498800000000, 1603034502133330000, 0, 0, 0, 0, 0, 0, 0, 0, 694270808666667000, 1788797625911110000,
   2638879690800000000, 2854046639155560000, 3044188245333330000, 3257895699555550000, 3345904954222220000,
   3453315516444450000, 3412930317333330000, 3488689199555560000, 3570631882222220000, 3271963112888890000,
   2612479845111110000, 2414287575511110000, 1990125756400000000, 1791233046844440000, 0, 0, 0, 0, 0, 0, 0, 0,
   864216884577778000, 1667135015555560000, 2684141593200000000, 2779331090088890000, 3157577458222220000,
   3262555530222220000, 3373131260444440000, 3462664484888890000, 3367387066666670000, 3303468257333330000,
   3065934121777780000, 2945188824000000000, 2571637455066670000, 2367668753866670000, 2019204272044440000,
   1664775793111110000, 0, 0, 0, 0, 0, 0, 0, 0, 844068245688889000, 1856784262266670000, 2623077296488890000,
   2776901530577780000, 3092251907555560000, 3200658911555560000, 3313403368000000000, 3032406786666670000,
   3111799750666670000, 3276095415555550000, 3460554372888890000, 3267068825333330000, 2536143612800000000,
   2320636701955550000, 1852133223733330000, 1738641435955560000, 0, 0, 0, 0, 0, 0, 0, 0, 684200885288889000,
   1693672604666670000, 2485020288177780000, 2680393213688890000, 3019482350666670000, 3237937556888890000,
   3314985952000000000, 3306281740000000000, 3386348767555560000, 3367006074222220000, 2750123623155560000,
   2700899399333330000, 2117128122400000000, 1946578320000000000, 1605891945466670000, 1360225086577780000, 0, 0, 0]

/-- Atlanta_Office_Building_Loads.csv:4346-5089. -/
def july : List Nat :=
  [0, 0, 0, 0, 0, 479997727200000000, 1469739899377780000, 1854518822577780000, 2094974877111110000,
   2233960920844440000, 2400568916800000000, 2212083162400000000, 2363794353777780000, 2092237592933330000,
   2122371164577780000, 2028233792977780000, 0, 0, 0, 0, 0, 0, 0, 0, 0, 0, 0, 0, 0, 0, 0, 0, 60036789395555600,
   159855344484444000, 189044934080000000, 338160101555556000, 531592896311111000, 778144829955556000,
   918578644977778000, 991465430311111000, 945593940000000000, 947044642000000000, 749318355466667000,
   278953289546667000, 132707581320000000, 55747693684444400, 0, 0, 0, 0, 0, 0, 263308567493333000,
   1006790118711110000, 1877480944133330000, 2769381325866670000, 2815794997733330000, 2938301652888890000,
   3004916716444450000, 3145268471555560000, 3327529395555560000, 3325507204888890000, 3357246806222220000,
   3317858048888890000, 2934022814666670000, 2522369270577780000, 2165731035466670000, 1847010340711110000,
   1642883381111110000, 0, 0, 0, 0, 0, 0, 0, 0, 0, 0, 0, 162409459217778000, 216244277760000000, 237461160848889000,
   544734204933333000, 586024993777778000, 961103263200000000, 1008041532355560000, 1200630282311110000,
   1027516107688890000, 967539104800000000, 872144458133333000, 449052348577778000, 290261438368889000,
   81727861542222200, 72797398644444500, 0, 0, 0, 0, 0, 1263833998133330000, 1641708165955550000, 2554516240755560000,
   3214491868000000000, 3305402526666670000, 3473332273333330000, 3536049491111110000, 3403669270222220000,
   3503372062222220000, 3637657245333330000, 3647035520888890000, 3591469238222220000, 3422279285777780000,
   2787208841555560000, 2564413252177780000, 2307536423288890000, 1985761927555560000, 0, 0, 0, 0, 0, 0, 0, 0,
   1240139198800000000, 2144231338755560000, 2955299777333330000, 3187968932444440000, 3175278953333330000,
   3505863166666670000, 3576053697777780000, 3624527659555550000, 3639181215111110000, 3509848933777780000,
   3721827268444440000, 3468144914666670000, 2922314623777780000, 2686064139688890000, 2373283996355560000,
   2059885472977780000, 0, 0, 0, 0, 0, 0, 0, 0, 1231848217066670000, 2318655541244440000, 3031410344888890000,
   3179088877777780000, 3375124144000000000, 3373746709777780000, 3707730548000000000, 3591029631555550000,
   3524590410666670000, 3626139550666670000, 3715790003555560000, 3385850546666670000, 2891805921111110000,
   2654643985866670000, 2389458590977780000, 2091425785955560000, 0, 0, 0, 0, 0, 0, 0, 0, 1109611187333330000,
   1813603164755560000, 2150614427555560000, 2367062096666670000, 2538051505733330000, 2669250650044440000,
   2503322579066670000, 2640523819733330000, 2640028529555550000, 2583914203911110000, 2649553340666670000,
   432294542444445000, 375201359288889000, 303715453866667000, 227099338644444000, 38787961555555600, 0, 0, 0, 0, 0,
   0, 0, 0, 0, 0, 39878186088888900, 193836060604444000, 341594894977778000, 602645056488889000, 906035201422222000,
   1044578707777780000, 1179130585600000000, 1206040375022220000, 1331468949155560000, 1304858092266670000,
   1130422166933330000, 1080626454444440000, 848874611911111000, 399529192222222000, 250047978928889000,
   65508133968888900, 34478350866666700, 0, 0, 0, 0, 1217558069688890000, 1469124450044450000, 2217771672666670000,
   2883342027422220000, 2967550149777780000, 2956823747111110000, 3251096449777780000, 3283158429333330000,
   3374918994222220000, 3470196412444440000, 3497598561333330000, 3539976644000000000, 3144594408000000000,
   2615703627333330000, 2438735567600000000, 2075878363511110000, 1793507278666670000, 0, 0, 0, 0, 0, 0, 0, 0,
   781629445466667000, 1852959684266670000, 2685636255866670000, 2737020413777780000, 2962509326666670000,
   3088559211555560000, 3075693389777780000, 3224221828888890000, 3359239689777780000, 3301328838222220000,
   3395639121777780000, 3042048826222220000, 2343258861022220000, 2078275685200000000, 1828212759644440000,
   1613626092088890000, 0, 0, 0, 0, 0, 0, 0, 0, 663310776488889000, 1681305003777780000, 2440959977333330000,
   2652777122888890000, 2956911668444450000, 3078536179555560000, 3159716877333330000, 3246641768888890000,
   3221994488444440000, 3412080411111110000, 3479662609333330000, 3114378776444440000, 2613253552844440000,
   2509263130488890000, 2223383984444440000, 1969634224311110000, 0, 0, 0, 0, 0, 0, 0, 0, 1001086954888890000,
   1854803101555550000, 2751735514266670000, 2834522241733330000, 3064556687555560000, 3213026512444440000,
   3343296621333330000, 3533587693777780000, 3458268418222220000, 3549706604888890000, 3617757716888890000,
   3159599648888890000, 2786778027022220000, 2308743876266670000, 1786696306044450000, 1635873120133330000, 0, 0, 0,
   0, 0, 0, 0, 0, 923291228444444000, 1833024987288890000, 2704035260222220000, 2863911412755550000,
   3088676440000000000, 3316597843111110000, 3544577860444440000, 3590736560444440000, 3536371869333330000,
   3620424664000000000, 3571745552444450000, 3421575915111110000, 2700427554844440000, 2164634949511110000,
   1992546523777780000, 1740294357022220000, 0, 0, 0, 0, 0, 0, 0, 0, 996608828311111000, 1683599750577780000,
   1954028187644440000, 2069439591200000000, 2200717864711110000, 2470604120222220000, 2408836452844440000,
   2531691862622220000, 2435722796577780000, 2467351030888890000, 2399540237200000000, 343080765511111000,
   184446062204445000, 348165549288889000, 266342732706667000, 48620790404444400, 42773728666666700, 0, 0, 0, 0, 0, 0,
   0, 0, 0, 0, 108324944088889000, 522305472800000000, 631131568488889000, 977641266000000000, 1150673380711110000,
   1185364208133330000, 1168515549955560000, 1248318813511110000, 1307768288400000000, 1161253247822220000,
   931632032266667000, 760516602622222000, 372434768000000000, 234367502200000000, 70935517875555600,
   91312752231111100, 0, 0, 0, 0, 1233524583822220000, 1569387007866670000, 2221367655200000000, 2967286385777780000,
   3085687114666670000, 3122760610222220000, 3302852808000000000, 3311234641777780000, 3350740627555560000,
   3246729690222220000, 3394671987111110000, 3384326576888890000, 3250422386222220000, 2669490968355560000,
   2490565193600000000, 2143123529955560000, 1769657151644440000, 0, 0, 0, 0, 0, 0, 0, 0, 952838657866667000,
   1780659041155560000, 2512182118755560000, 2673063505200000000, 2793527454711110000, 3024669709333330000,
   3105909021333330000, 3219386155555560000, 3238523699111110000, 3389279478666670000, 3432038553777780000,
   3133574934222220000, 2592342929066670000, 2172879039866670000, 1846617625422220000, 1549168031911110000, 0, 0, 0,
   0, 0, 0, 0, 0, 674022525600000000, 1675683899866670000, 2373067123733330000, 2433899894266670000,
   2550187580444440000, 2739748905822220000, 2919638884533330000, 3077656966222220000, 3165988599111110000,
   3365452797333330000, 3384531726666670000, 3169358916888890000, 2607239733644440000, 2407303690933330000,
   2037653098488890000, 1790517953333330000, 0, 0, 0, 0, 0, 0, 0, 0, 702895891466667000, 1715594323777780000,
   2535279053022220000, 2626251256622220000, 2781734273200000000, 3026164372000000000, 3198695335111110000,
   3242568080444440000, 3295877715555560000, 3463953997777780000, 3539097430666670000, 3262350380444450000,
   2680419590088890000, 2486289286088890000, 2142226732355560000, 1918387809822220000, 0, 0, 0, 0, 0, 0, 0, 0,
   908444245955556000, 1861578905644440000, 2712976859822220000, 2966612322222220000, 3065699664888890000,
   3295760487111110000, 3307922938222220000, 3508705956444450000, 3429459528000000000, 3491619910666670000,
   3555421491555560000, 3325389976444450000, 2819742665600000000, 2515171444088890000, 2159494482222220000,
   1880086346311110000, 0, 0, 0, 0, 0, 0, 0, 0, 771919999555556000, 1614813030088890000, 1934213649822220000,
   2151493640888890000, 2388321475066670000, 2496719686933330000, 2424747283466670000, 2450379282844440000,
   2305613876800000000, 2240660526444440000, 2319660775155550000, 48829457035555600, 0, 0, 0, 0, 0, 0, 0, 0, 0, 0, 0,
   0, 0, 0, 47383151102222200, 178214198097778000, 221289203866667000, 378908708844444000, 414387897555555000,
   575046549955556000, 797695603777778000, 906574452266667000, 963828824533333000, 1014371868355560000,
   914786304800000000, 746941548755556000, 369893841466667000, 188544368622222000, 71955112271111100,
   32403114328888900, 0, 0, 0, 0, 0, 758327361422222000, 1401574489644450000, 2089723042800000000,
   2803902172044450000, 2970773932000000000, 2792106059822220000, 3029183004444450000, 3067839084000000000,
   3158632514222220000, 3177154608444450000, 3223108158666670000, 3369204107555560000, 3066696106666670000,
   2495418451200000000, 2314250682444440000, 1992625652977780000, 1757348164977780000, 0, 0, 0, 0, 0, 0, 0, 0,
   785996205022222000, 1640154889066670000, 2350852333511110000, 2531240533111110000, 2867580663066670000,
   3243769672000000000, 3170736351111110000, 3349333886222220000, 3341069280888890000, 3413780223555560000,
   3381307944444440000, 2479437283511110000, 2017161566400000000, 1789776483422220000, 1648715496222220000,
   1474519889200000000, 0, 0, 0, 0, 0, 0, 0, 0, 867006921555556000, 1767722882311110000, 2538494043111110000,
   2668057850622220000, 2853058989511110000, 3132754335111110000, 3369028264888890000, 3378963375555560000,
   3361818715555560000, 3536694247555560000, 3449388363555560000, 3193097676888890000, 2645382938755560000,
   2352305966222220000, 1989507376355560000, 1776588283422220000, 0, 0, 0, 0, 0, 0, 0, 0, 853159311555556000,
   1725737514933330000, 2280526989688890000, 2205260466933330000, 2306129681955560000, 2496514537155560000,
   2411972313733330000, 2628736499644450000, 2678558588533330000, 2793161115822220000, 2661733376044440000,
   2208024127511110000, 1758321161066670000, 1539737003555560000, 1340882393244440000, 1104391590844440000, 0, 0, 0,
   0, 0, 0, 0, 0, 230901643240000000, 1193722596222220000, 1921933970266670000, 1920137444355560000,
   1965161959155560000, 2039276712444440000, 1934875990533330000, 2131942867066670000, 2196225084577780000,
   2193766217955550000, 2189812688666670000, 1663530240888890000, 1323808070311110000, 1132804835066670000,
   869758859288889000, 720002452222222000, 0, 0, 0, 0, 0, 0, 0, 0, 55398352920000000, 520227598622222000,
   577769180577778000, 584339834888889000, 661827836666667000, 1136134122888890000, 1064824060133330000,
   1048288988044440000, 1249880882533330000, 1508146868488890000, 1489633566400000000, 0, 0, 0, 0, 0, 0, 0, 0, 0, 0,
   0, 0, 0, 0, 0, 0, 0, 0, 0, 75257144480000000, 242965915528889000, 400845081511111000, 555009278088889000,
   635691754977778000, 870655656888889000, 912098842711111000, 695032793555556000, 289438201617778000,
   127990601786667000, 39668054102222200, 0, 0, 0, 0, 0, 0, 603761657422222000, 1232577964133330000,
   2107931550933330000, 2974759699111110000, 3028802012000000000, 3291423034666670000, 3360617124000000000,
   3373189874666670000, 3574412499555550000, 3698498808000000000, 3582266805333330000, 3436727691555560000,
   3304757770222220000, 2691339419688890000, 2443075950755560000, 2166668863022220000, 1855749721244440000, 0, 0, 0]

/-- Atlanta_Office_Building_Loads.csv:5090-5833. -/
def august : List Nat :=
  [0, 0, 0, 0, 0, 1111900072711110000, 1966888148000000000, 2818060437422220000, 2883274621066670000,
   3208073610666670000, 3337962727111110000, 3354902237333330000, 3460993979555560000, 3537045932888890000,
   3700433077333330000, 3642463611555560000, 3423832562666670000, 2875584435111110000, 2390578122622220000,
   2059744798844440000, 1950912841733330000, 0, 0, 0, 0, 0, 0, 0, 0, 1134583776711110000, 1969004121422220000,
   2711980418044440000, 2960809514222220000, 3183895244000000000, 3318502805333330000, 3540973085777780000,
   3515886198666670000, 3473273659111110000, 3570075047111110000, 3651841887111110000, 3400064495555550000,
   2777256146622220000, 2702502498311110000, 2300344458222220000, 1767843041466670000, 0, 0, 0, 0, 0, 0, 0, 0,
   1122151700177780000, 2037831871866670000, 2680070835466670000, 2774530585288890000, 3005825236888890000,
   3248077817333330000, 3348366751555550000, 3625787865333330000, 3531565503111110000, 3587717928000000000,
   3677837294666670000, 3420960465777780000, 2673693608088890000, 2445446896044440000, 2130401313022220000,
   1852235798622220000, 0, 0, 0, 0, 0, 0, 0, 0, 1147039298933330000, 1937557591200000000, 2709753077600000000,
   2856051245555560000, 3067927005333330000, 3180817997333330000, 3406570674222220000, 3368295587111110000,
   3444728532888890000, 3185301985333330000, 3349744185777780000, 3367035381333330000, 2683323924800000000,
   2350113794311110000, 2020191921688890000, 1822286861777780000, 0, 0, 0, 0, 0, 0, 0, 0, 1004961354977780000,
   1704955842444440000, 1892043647644440000, 1744787137155560000, 2042377404800000000, 2247550628266670000,
   2156724960222220000, 2236551669466670000, 2225775444711110000, 2196383342977780000, 2142124157466670000, 0,
   42442265240000000, 85720662360000000, 40105609271111100, 0, 0, 0, 0, 0, 0, 0, 0, 0, 0, 0, 26203194973333300,
   177626590520000000, 223449137955556000, 472928852000000000, 646040095911111000, 977975367066667000,
   1201553456311110000, 1218290747466670000, 1236238422311110000, 1202957266933330000, 1014163787866670000,
   954931185600000000, 549171301555556000, 340279005688889000, 239630473213333000, 76397777244444400,
   40026773142222200, 0, 0, 192907904395556000, 0, 1222279445288890000, 1737058851955550000, 2589983706622220000,
   3239871826222220000, 3330196342666670000, 3319118254666670000, 3465477967555560000, 3630799381333330000,
   3660047878222220000, 3747881290222220000, 3725900956888890000, 3792310870666670000, 3296727621777780000,
   2065354179911110000, 2307583314666670000, 1683101529688890000, 1613629022800000000, 0, 0, 0, 0, 0, 0, 0, 0,
   774841918533333000, 1684344151200000000, 2544666120711110000, 2659552926977780000, 3032670550666670000,
   3244092050222220000, 3468262143111110000, 3538657824000000000, 3480864200888890000, 3645511551111110000,
   3645101251555560000, 2714371878311110000, 2446666071866670000, 2356784092800000000, 2096847601511110000,
   1757345234266670000, 0, 0, 0, 0, 0, 0, 0, 0, 1154908258266670000, 1995937356533330000, 2917575663911110000,
   2945569816444450000, 3101161269333330000, 3185096835555560000, 3515593127555560000, 3472394445777780000,
   3524942096000000000, 3500939572000000000, 3556271397777780000, 3460085459111110000, 2706781336533330000,
   2317823219288890000, 2091308557511110000, 1828485315777780000, 0, 0, 0, 0, 0, 0, 0, 0, 1138877268488890000,
   2104400044044440000, 2845697043200000000, 3014148456444450000, 3229467801777780000, 3371783133333330000,
   3470518790666670000, 3443673476888890000, 3492059517333330000, 3552520087555560000, 3643254903555560000,
   3318414884000000000, 2680217371022220000, 2488270446800000000, 2231484469955560000, 2028503418400000000, 0, 0, 0,
   0, 0, 0, 0, 0, 1006019341688890000, 1884271401777780000, 2606826503377780000, 2707144744711110000,
   2876844640888890000, 2985398180444440000, 3107872597777780000, 3233043269333330000, 3322342036888890000,
   3425678910666670000, 3522509605777780000, 2925459276800000000, 2339832859733330000, 2168439012533330000,
   1897251521288890000, 1702028062044440000, 0, 0, 0, 0, 0, 0, 0, 0, 859603945288889000, 1624402316844440000,
   1765645008133330000, 1825777338711110000, 1954365219422220000, 2117948721511110000, 2044417179733330000,
   2078770975377780000, 2141004625822220000, 2369852133644440000, 2296666415777780000, 246770564693333000,
   209065207822222000, 247168262191111000, 104722513991111000, 50537768542222200, 39156351942222200, 0, 0, 0, 0, 0, 0,
   0, 0, 0, 64091428217777800, 187579578524444000, 297056878222222000, 458697318844445000, 564950250177778000,
   967237241555556000, 1052576618400000000, 1112489145644450000, 1138469899644450000, 1202851761333330000,
   939301703244445000, 870881321644444000, 506661336888889000, 294436822488889000, 72984378013333300,
   75639895351111100, 35050132604444400, 0, 0, 0, 0, 1344220473200000000, 1691503878444450000, 2439963535555560000,
   2938125810222220000, 3102216325333330000, 3165461071111110000, 3360734352444440000, 3286675282666670000,
   3464979746666670000, 3452641452888890000, 3480483208444440000, 3707203020000000000, 3308684923111110000,
   2793222660755560000, 2462688269511110000, 2266568012666670000, 1928434287511110000, 0, 0, 0, 0, 0, 0, 0, 0,
   1211380130666670000, 2009875818577780000, 2734250891777780000, 2871762787822220000, 3082170261333330000,
   3220411904444440000, 3314018817333330000, 3508940413333330000, 3442647728000000000, 3640353499555560000,
   3683903866666670000, 3271464892000000000, 2814130353822220000, 2469047912622220000, 2110120792133330000,
   1929436590711110000, 0, 0, 0, 0, 0, 0, 0, 0, 1100663726311110000, 1970349317822220000, 2746202331688890000,
   2852314588888890000, 3095915296444450000, 3257426785777780000, 3362961692888890000, 3532972244444450000,
   3666143757333330000, 3685486450666670000, 3722940938666670000, 3239930440444440000, 2764358087022220000,
   2449415078888890000, 2283507522888890000, 2123171248711110000, 0, 0, 0, 0, 0, 0, 0, 0, 1122192730133330000,
   1973233137555560000, 2802190636755560000, 2971682452444450000, 3096706588444440000, 3264343264000000000,
   3522831984000000000, 3588069613333330000, 3559612408444440000, 3640705184888890000, 3711423244000000000,
   3426704659555560000, 2852106508400000000, 2548329509600000000, 2282877420000000000, 2067012962400000000, 0, 0, 0,
   0, 0, 0, 0, 0, 1046896900266670000, 2015505714622220000, 2777508187777780000, 3041286841333330000,
   3158075679111110000, 3319528554222220000, 3485406803111110000, 3397075170222220000, 3569869897333330000,
   3521102864444440000, 3702836260444440000, 3227152540000000000, 2912707752755560000, 2610999836000000000,
   2176803262044440000, 2077071162933330000, 0, 0, 0, 0, 0, 0, 0, 0, 1238908300133330000, 1970923737200000000,
   2126767231244440000, 2309951329244440000, 2523441910844440000, 2566910218044440000, 2535850541688890000,
   2472594073066670000, 2616846604666670000, 2595484651377780000, 2564515827066670000, 307299713555556000,
   100746418226667000, 113363422631111000, 41573602466666700, 0, 0, 0, 0, 0, 0, 0, 0, 0, 0, 0, 0, 0,
   18040256008444500, 338145448000000000, 547234101511111000, 795541531111111000, 1024330424711110000,
   1070286905644440000, 1203068633955560000, 1111357891155560000, 761732847733333000, 327864513422222000,
   200283331977778000, 34305438911111100, 0, 0, 0, 0, 0, 0, 0, 1236680959688890000, 1747580104844440000,
   2423865139422220000, 2945657737777780000, 2981617563111110000, 2944983674222220000, 3115668289333330000,
   3239813212000000000, 3336497371555560000, 3328232766222220000, 3643460053333330000, 3612599665333330000,
   3460935365333330000, 2914422218755560000, 2551899115733330000, 2286520293911110000, 2002610585733330000, 0, 0, 0,
   0, 0, 0, 0, 0, 1154893604711110000, 2100294117777780000, 2711353245866670000, 2873342441111110000,
   3167659104444440000, 3372369275555550000, 3333214975111110000, 3458971788888890000, 3594810248888890000,
   3532063724000000000, 3575321020000000000, 3306604118222220000, 2709111251866670000, 2352771949288890000,
   2024505928444440000, 1856045723066670000, 0, 0, 0, 0, 0, 0, 0, 0, 881247246844444000, 1873823416666670000,
   2438908479555560000, 2496716756222220000, 2522422023377780000, 2713410605066670000, 2719236858755560000,
   3055735247111110000, 3174341125777780000, 3266980904000000000, 3342476022222220000, 3020215028444440000,
   2501540706711110000, 2199352153333330000, 1857472979377780000, 1680402344755560000, 0, 0, 0, 0, 0, 0, 0, 0,
   1043473829688890000, 1917171564711110000, 2554061980533330000, 2552945379600000000, 2742626864133330000,
   2860927948844440000, 2990439003555560000, 3277502156888890000, 3451498475555560000, 3422455128444440000,
   3369526485777780000, 3176656387555560000, 2514412389911110000, 2057573141911110000, 1831802880755560000,
   1628264994088890000, 0, 0, 0, 0, 0, 0, 0, 0, 230093646186667000, 1147502351288890000, 1962571210533330000,
   2047895933822220000, 2401553635733330000, 2453096052044440000, 2614074151955560000, 2830770931511110000,
   2884230032888890000, 3022061376444440000, 3078917172000000000, 2732510049377780000, 2151534670844440000,
   1884690493466670000, 1596176638133330000, 1367660300666670000, 0, 0, 0, 0, 0, 0, 0, 0, 375412370488889000,
   1244787306622220000, 1425424616666670000, 1607606411466670000, 1878829071244440000, 2095857021155560000,
   2189056565200000000, 2138621957688890000, 2068891548222220000, 2202244765200000000, 2138991227288890000,
   199522812444445000, 174271512440000000, 221429291857778000, 90906555671111100, 43509923297777800, 0, 0, 0, 0, 0, 0,
   0, 0, 0, 0, 77722751737777800, 178121001484445000, 223077523786667000, 409317767333333000, 615206084311111000,
   1051225560577780000, 1113072357155560000, 1113497310266670000, 1158501310088890000, 1087446219200000000,
   930606283377778000, 755279421866667000, 276771375124444000, 140192617497778000, 69587097693333300, 0, 0, 0, 0, 0,
   0, 897445287155556000, 1550129305155560000, 2172597691600000000, 2853466358355560000, 2926068864711110000,
   3003275518222220000, 3102362860888890000, 3164318093777780000, 3368588658222220000, 3315279023111110000,
   3272695790666670000, 3338666097777780000, 3182635038222220000, 2582574868933330000, 2347139122533330000,
   2085828127733330000, 1861819223955560000, 0, 0, 0, 0, 0, 0, 0, 0, 1092613062888890000, 1914120694444440000,
   2683130497866670000, 2950024497333330000, 3079620542666670000, 3159863412888890000, 3292360862222220000,
   3370435006222220000, 3396166649777780000, 3389484628444440000, 3460935365333330000, 3176363316444440000,
   2681703241555560000, 2344340293422220000, 2047139810355560000, 1742779600044440000, 0, 0, 0, 0, 0, 0, 0, 0,
   612788247644444000, 1545548603688890000, 2193156630044440000, 2333124462000000000, 2612198496844440000,
   2810088903200000000, 2818640718222220000, 2911116376622220000, 3002630761777780000, 3040143864000000000,
   3167043655111110000, 2964355674666670000, 2355116518177780000, 2019526650266670000, 1679089386177780000,
   1435046141244440000, 0, 0, 0, 0, 0, 0, 0, 0, 709991143066667000, 1577889000800000000, 2208985400755560000,
   2192221733200000000, 2225875088888890000, 2414246545555550000, 2492939069600000000, 2631180712711110000,
   2569843859866670000, 2587501394311110000, 2532078716488890000, 2114458244577780000, 1673140042622220000,
   1464373767333330000, 1280709032711110000, 1124909499333330000, 0, 0, 0]

/-- Atlanta_Office_Building_Loads.csv:5834-6553. -/
def september : List Nat :=
  [0, 0, 0, 0, 0, 302129939155555000, 1256410506888890000, 1866024794400000000, 2030030318888890000,
   2170291221955560000, 2296950694755560000, 2439263095600000000, 2531897012400000000, 2647786121866670000,
   2770327945555560000, 2598175044177780000, 2177623861155560000, 1686131884977780000, 1470622043422220000,
   1269739381022220000, 1137233139555560000, 0, 0, 0, 0, 0, 0, 0, 0, 223983406591111000, 1042990262355560000,
   1175616662977780000, 1197265825955560000, 1205978830088890000, 1317931994533330000, 1183265818977780000,
   1231895108444440000, 1259308980177780000, 1238254751555560000, 1222716121244440000, 0, 0, 0, 0, 0, 0, 0, 0, 0, 0,
   0, 0, 0, 0, 0, 0, 0, 0, 0, 0, 66149373560000000, 136244656560000000, 352883994177778000, 466334752000000000,
   447994361866667000, 361942822222222000, 213346097542222000, 31916030142222200, 0, 0, 0, 0, 0, 0, 0, 0, 0, 0, 0,
   85149466764444400, 119192020888889000, 257559391506667000, 446376609333333000, 530842634266667000,
   702846069377778000, 761732847733333000, 858859544666667000, 982658643422222000, 939858538355555000,
   749444376044445000, 341797114044445000, 219830588946667000, 73804684053333300, 34720134533333300, 0, 0, 0, 0, 0, 0,
   1257978437333330000, 1620120547911110000, 2342162775066670000, 2826568291777780000, 2970715317777780000,
   2990292468000000000, 3002835911555560000, 3223752915111110000, 3291774720000000000, 3313725746222220000,
   3358477704888890000, 3162354517333330000, 3109455181777780000, 2482162844844440000, 2150787339511110000,
   1904607606177780000, 1748723082177780000, 0, 0, 0, 0, 0, 0, 0, 0, 954749481511111000, 1796118542266670000,
   2724872616222220000, 2862437265066670000, 2991699209333330000, 3168567624888890000, 3485670567111110000,
   3546394901333330000, 3580684221333330000, 3431716175555550000, 3459470009777780000, 3161445996888890000,
   2703967853866670000, 2280497682577780000, 2023210554133330000, 1755750927422220000, 0, 0, 0, 0, 0, 0, 0, 0,
   907084396000000000, 1781933900488890000, 2644111010133330000, 2897491500666670000, 2930769725333330000,
   3217686343111110000, 3337874805777780000, 3337904112888890000, 3484879275111110000, 3442706342222220000,
   3698147122666670000, 3148580175111110000, 2623191594222220000, 2308163595466670000, 1957143533555560000,
   1668090427377780000, 0, 0, 0, 0, 0, 0, 0, 0, 578970772133333000, 1508196690577780000, 2388300960088890000,
   2645362423777780000, 2862765504711110000, 3207751232444440000, 3259273133777780000, 3227621453777780000,
   3247696824888890000, 3239373605333330000, 3328760294222220000, 3050606502666670000, 2426789989111110000,
   2239757867422220000, 1888831588266670000, 1658671121866670000, 0, 0, 0, 0, 0, 0, 0, 0, 554188678977778000,
   1364301705733330000, 1782980164355560000, 2112339340444440000, 2202842630266670000, 2432244042488890000,
   2260325598000000000, 2199495758177780000, 2012730331200000000, 1915761892666670000, 1764645635644450000,
   14746400483555600, 80504582724444500, 36312682951111100, 0, 0, 0, 0, 0, 0, 0, 0, 0, 0, 0, 0, 0, 0, 0,
   44561755515555600, 204605544724444000, 267956968386667000, 433050665911111000, 459837365466667000,
   536888691288889000, 750988860800000000, 597700946844445000, 276136876168889000, 72444247955555600,
   33726330395555600, 0, 0, 0, 0, 0, 0, 0, 686574761288889000, 1155582321822220000, 1910811921600000000,
   2674405770888890000, 2813341992533330000, 3061684590666670000, 3326562260888890000, 3256782029333330000,
   3346256639555560000, 3393089403111110000, 3558586659555560000, 3522714755555550000, 3108312204444440000,
   2257116469333330000, 2033658539244440000, 1730423722000000000, 1489923706800000000, 0, 0, 0, 0, 0, 0, 0, 0,
   652727978666667000, 1360984140755560000, 2382339893688890000, 2411046209022220000, 2660039425022220000,
   2918800701155550000, 3105615950222220000, 3168655546222220000, 3213583347555560000, 3254671917333330000,
   3233717332888890000, 2820457759111110000, 2291335452266670000, 1905662662177780000, 1580239431111110000,
   1377094259733330000, 0, 0, 0, 0, 0, 0, 0, 0, 188318117724444000, 1049112517866670000, 1718821036711110000,
   1625911633066670000, 1764091731244440000, 1978646160977780000, 1913326471733330000, 2187198494355550000,
   2241958831466670000, 2400146894400000000, 2360254054755560000, 1883679398133330000, 1399713488088890000,
   1107134736444440000, 784785821333333000, 590336069822222000, 0, 0, 0, 0, 0, 0, 0, 0, 1684854094933330,
   315620002400000000, 694786613822222000, 1098395355911110000, 1426054719555550000, 1698637229288890000,
   1779351944000000000, 2031542565822220000, 2103667366266670000, 2251694653777780000, 2302252351155560000,
   1913839346177780000, 1468081116888890000, 1129334873111110000, 918827755422222000, 669233743644444000, 0, 0, 0, 0,
   0, 0, 0, 0, 21080575715111100, 364014834977778000, 1130896942133330000, 1378843894266670000, 1781778572800000000,
   2089843201955560000, 2243412464177780000, 2497452364711110000, 2647624932755550000, 2876079725288890000,
   2852414233066670000, 2470785824311110000, 1979422799422220000, 1691943485111110000, 1452293376133330000,
   1224530231422220000, 0, 0, 0, 0, 0, 0, 0, 0, 533102212533333000, 1364137585911110000, 1488988809955550000,
   1491682133466670000, 1470094515422220000, 1676753609422220000, 1707449877600000000, 1757330580711110000,
   1867112088222220000, 1637013166755560000, 1648990983066670000, 0, 0, 0, 0, 0, 0, 0, 0, 0, 0, 0, 0, 0, 0, 0, 0, 0,
   0, 0, 126254741595556000, 254240654244444000, 382997050844445000, 507273855511111000, 522156006533333000,
   422157212711111000, 505272179822222000, 130841011413333000, 56923494982222200, 0, 0, 0, 0, 0, 0, 0, 0,
   42390684724444500, 439615458800000000, 1159377592711110000, 1804605881644440000, 1936323761822220000,
   2151971346800000000, 2380525783511110000, 2415670871155560000, 2722229114800000000, 2726950490400000000,
   2542503255911110000, 2744584579155560000, 2171211465244450000, 1643932575688890000, 1227311476266670000,
   923300020577778000, 723053322488889000, 0, 0, 0, 0, 0, 0, 0, 0, 41580343102222200, 478136725644445000,
   1088076322088890000, 1357051126444450000, 1605730756355560000, 1972268933600000000, 2091607490044440000,
   2349691771911110000, 2383286513377780000, 2411374448666670000, 2489105699466670000, 2167835286044440000,
   1595877705600000000, 1249833991155560000, 1004410381288890000, 810007521155556000, 0, 0, 0, 0, 0, 0, 0, 0,
   42441386026666700, 424783129866667000, 1250774749422220000, 1472764393244450000, 1786939555066670000,
   2095089174844440000, 2130987455244440000, 2386809228133330000, 2366637143555560000, 2376179538933330000,
   2461389964488890000, 2077044786533330000, 1575667521777780000, 1240681380355560000, 1007502281511110000,
   821226283288889000, 0, 0, 0, 0, 0, 0, 0, 0, 91207832773333300, 723270195111111000, 1568405219644450000,
   1796780882977780000, 2042579623866670000, 2338974161377780000, 2345919946711110000, 2519872304711110000,
   2525352734488890000, 2458913513600000000, 2145655664355550000, 1731455332311110000, 1311868353244440000,
   1051506908844440000, 878694597466667000, 754869122311111000, 0, 0, 0, 0, 0, 0, 0, 0, 33139015888888900,
   435787950088889000, 1265448819955560000, 1468245236711110000, 1794105143733330000, 2072660442711110000,
   2132529009288890000, 2297276003688890000, 2512199703022220000, 2559413459022220000, 2533453220000000000,
   2136913353111110000, 1576974618933330000, 1218516412222220000, 996849146622222000, 717279821600000000, 0, 0, 0, 0,
   0, 0, 0, 0, 27861244784444400, 363689526044444000, 587024366266667000, 958480276755556000, 1354184890977780000,
   1580453373022220000, 1585690553777780000, 1714442554311110000, 1832013891955560000, 1858067913733330000,
   1810578670888890000, 178742605311111000, 120870146071111000, 76780821186666700, 29646194386666700, 0, 0, 0, 0, 0,
   0, 0, 0, 0, 0, 0, 0, 34759406062222200, 99569151573333300, 288005670026667000, 419847812355556000,
   467659433422222000, 585160434000000000, 684801681066667000, 801030753022222000, 769783511155556000,
   418866024133333000, 236675144128889000, 115960032675556000, 30289778546666700, 0, 0, 0, 0, 0, 0, 0,
   312325883111111000, 1061623723600000000, 1659327601155560000, 2432707094844440000, 2573000235733330000,
   2712088854355550000, 2875402731022220000, 2940616914666670000, 2902957276888890000, 3048730847555560000,
   3020097800000000000, 3166281670222220000, 2819657674977780000, 2278446184800000000, 1881668930311110000,
   1634061940666670000, 1457495388355550000, 0, 0, 0, 0, 0, 0, 0, 0, 492497210088889000, 1394039631377780000,
   2089778726311110000, 2194648362000000000, 2380801270355550000, 2437926691333330000, 2672143261911110000,
   2749303024044440000, 2776854639200000000, 2966260636888890000, 2867006243688890000, 2618944993822220000,
   2097641824222220000, 1750985591155560000, 1553452731555560000, 1408877821733330000, 0, 0, 0, 0, 0, 0, 0, 0,
   854299358177778000, 1642546349333330000, 2285016839111110000, 2229046118311110000, 2325958873333330000,
   2471032004044440000, 2345257606000000000, 2561784404311110000, 2564369291511110000, 2590877573511110000,
   2745821339244440000, 2321826570666670000, 1818016815688890000, 1464271192444440000, 1338833826177780000,
   1286259799555560000, 0, 0, 0, 0, 0, 0, 0, 0, 380444401466667000, 1356998373644450000, 2095763238400000000,
   2293281444444440000, 2397658720666670000, 2428741842711110000, 2349923298088890000, 2373483284711110000,
   1969941948977780000, 1956668758355560000, 1871915523733330000, 1218402114488890000, 758427005600000000,
   513908985466667000, 344135821511111000, 247539290217778000, 0, 0, 0, 0, 0, 0, 0, 0, 0, 307024226711111000,
   549780889466667000, 631169667733333000, 834083312933333000, 1295019695066670000, 1339906466444440000,
   1604678631066670000, 1758602509333330000, 1944403732355560000, 1936010175733330000, 1470287942355560000,
   1096367303822220000, 904637252222222000, 684359143688889000, 551553969688889000, 0, 0, 0, 0, 0, 0, 0, 0,
   23758307843111100, 290127504871111000, 305778674488889000, 316024440533333000, 304207813333333000,
   377595750266667000, 283742950715556000, 244071086688889000, 234671416942222000, 211349697133333000,
   216617943426667000, 1819306328577780, 0, 0, 0, 0, 0, 0, 0]

/-- Atlanta_Office_Building_Loads.csv:6554-7297. -/
def october : List Nat :=
  [0, 0, 0, 0, 0, 0, 0, 0, 0, 0, 0, 0, 0, 0, 0, 0, 0, 0, 0, 0, 0, 0, 0, 0, 0, 0, 0, 0, 0, 325930244088889000,
   1085617455466670000, 1862191424266670000, 2117072438888890000, 2245056593111110000, 2517729954888890000,
   2514406528488890000, 2763739706977780000, 2805827649244440000, 2858477874355550000, 2969953332888890000,
   2480852816977780000, 1839352392577780000, 1553458592977780000, 1286031204088890000, 1019204610977780000, 0, 0, 0,
   0, 0, 0, 0, 0, 0, 312554478577778000, 510002347555556000, 779759651777778000, 1260627800177780000,
   1744171687822220000, 1520385518088890000, 1816076684933330000, 1819373734933330000, 1835908807022220000,
   1881153125155560000, 1462436567288890000, 962788422088889000, 644498541866667000, 285562922315556000,
   133432639248889000, 0, 0, 0, 0, 0, 0, 0, 0, 7816792675555560, 136408776382222000, 458251850755556000,
   393327807511111000, 358182719866667000, 543268849377778000, 714138099288889000, 1283009640933330000,
   1437270550977780000, 1707971544177780000, 1678303955600000000, 1205518708444440000, 806689956177778000,
   596188699911111000, 294981934755556000, 245034118360000000, 0, 0, 0, 0, 0, 0, 0, 0, 0, 327594888000000000,
   368179375466667000, 306353093866667000, 449404033911111000, 814046041066667000, 1194628185955560000,
   1575805265200000000, 1709879437111110000, 1875927667244440000, 1832520904977780000, 1340662589911110000,
   872162042400000000, 486609411466667000, 198966563475556000, 79844000440000000, 0, 0, 0, 0, 0, 0, 0, 0,
   28646352984000000, 215744591515556000, 519483198000000000, 337239858266667000, 453489445200000000,
   652599027377778000, 790767402711111000, 1250097755155560000, 1414627876933330000, 1650553052088890000,
   1659204511288890000, 1273001262488890000, 827257686755556000, 509316561155555000, 251418379444444000,
   91087673617777800, 0, 0, 0, 0, 0, 0, 0, 0, 29998465862222200, 175256817515556000, 196523815764444000,
   137986964315556000, 287766524000000000, 406363610533333000, 443932396266667000, 502130457511111000,
   609412068444444000, 775902835955556000, 923780657200000000, 39194451186666700, 52874717582222200, 0, 0, 0, 0, 0, 0,
   0, 0, 0, 0, 0, 0, 0, 0, 0, 0, 33746845373333300, 103271225848889000, 187555253622222000, 312296576000000000,
   362997878222222000, 425020517466667000, 379738100088889000, 236392916648889000, 113439328048889000,
   24829336218666700, 0, 0, 0, 0, 0, 0, 0, 0, 0, 0, 0, 0, 0, 61088914684444500, 188228437964444000,
   295178292400000000, 366406295244444000, 435837772177778000, 563599192355556000, 590687755155556000,
   561061196533333000, 335305588933333000, 136310011417778000, 32984860484444400, 0, 0, 0, 0, 0, 0, 0, 0,
   170096714462222000, 525491155777778000, 1137423635777780000, 2010007700577780000, 2118599339377780000,
   2334947364311110000, 2735077352311110000, 2963710918222220000, 2993340407555560000, 3173461912444440000,
   3135626432000000000, 3199398705777780000, 2746688829733330000, 2219283919600000000, 1709143828622220000,
   1449189753066670000, 1171112160000000000, 0, 0, 0, 0, 0, 0, 0, 0, 197222790364444000, 806795461777778000,
   1690527951644450000, 1879066458844440000, 2204085251777780000, 2556113478311110000, 2718665370088890000,
   2954010264444440000, 3013503700000000000, 2916588014266670000, 2621395068311110000, 1865421067911110000,
   1355116857111110000, 935052172133333000, 659934597288889000, 385438333200000000, 0, 0, 0, 0, 0, 0, 0, 0, 0,
   246779649897778000, 419361314311111000, 405244078888889000, 702901752888889000, 960983104044444000,
   1164494614311110000, 1497473218622220000, 1613418011600000000, 1715011112266670000, 1763868997200000000,
   1420032108222220000, 930659036177778000, 494578014977778000, 236487871688889000, 107698944195556000, 0, 0, 0, 0, 0,
   0, 0, 0, 56269946404444400, 140902142657778000, 416782288533333000, 450722853911111000, 408573366711111000,
   625378582577778000, 756522043377778000, 1126471568355560000, 1408637503422220000, 1604620016844440000,
   1772467703600000000, 1358671809688890000, 878167069466667000, 514952318622222000, 225607020546667000,
   106246776840000000, 0, 0, 0, 0, 0, 0, 0, 0, 26870342050666700, 162083857213333000, 59996052511111100,
   127872787200000000, 320523082088889000, 447302714044444000, 480205807688889000, 521549349333333000,
   616993818088889000, 760859495822222000, 860275078133333000, 15122469333333300, 25344731074666700, 0, 0, 0, 0, 0, 0,
   0, 0, 0, 0, 0, 0, 0, 0, 0, 0, 0, 49769043017777800, 116004286413333000, 175374339031111000, 244972866497778000,
   286364764875556000, 210389010031111000, 113445482542222000, 0, 0, 0, 0, 0, 0, 0, 0, 0, 0, 0, 0, 481492389866667000,
   1107137667155560000, 1443372291511110000, 1869597331244440000, 2228163974266670000, 2357466948488890000,
   2485046664577780000, 2548563966488890000, 2558279273822220000, 2565348149022220000, 2132256453155560000,
   1539470308844450000, 1303471865911110000, 1038098905511110000, 893345222311111000, 0, 0, 0, 0, 0, 0, 0, 0,
   39736046600000000, 481187595911111000, 1347121877200000000, 1607928789688890000, 1921933970266670000,
   2306756854133330000, 2477649549733330000, 2639108286266670000, 2592633069466670000, 2684710151155560000,
   2637845149777780000, 2214404285600000000, 1712244520977780000, 1480187884488890000, 1301801360577780000,
   1179845679111110000, 0, 0, 0, 0, 0, 0, 0, 0, 257413149022222000, 1111390128977780000, 1945895464311110000,
   2042043303733330000, 2144336844355560000, 2344897128533330000, 2439497552488890000, 2584122284400000000,
   2717929761600000000, 2736211537511110000, 2865391421866670000, 2364289643955560000, 1876449333822220000,
   1651394166177780000, 1465751201555560000, 1342901653200000000, 0, 0, 0, 0, 0, 0, 0, 0, 330909522266667000,
   1134791857200000000, 1931218463066670000, 1976439335511110000, 2002639892844450000, 2124557475066670000,
   2075224814933330000, 2237562764800000000, 2357411264977780000, 2301332107866670000, 2383562000222220000,
   1973212622577780000, 1324109933555550000, 1015022486222220000, 723944258666667000, 484845123377778000, 0, 0, 0, 0,
   0, 0, 0, 0, 0, 293132656044444000, 372264786755555000, 323699972933333000, 450377030000000000, 814550123377778000,
   864846987466667000, 1282698985555560000, 1320261909866670000, 1465150405777780000, 1418329365066670000,
   1001740503466670000, 521593310000000000, 241416741635556000, 78736777782222200, 50636533506666700, 0, 0, 0, 0, 0,
   0, 0, 0, 54137267928888900, 126329474728889000, 116969955724445000, 113517578035556000, 166049988560000000,
   342573752488889000, 385239044844444000, 429314009244445000, 499903117066667000, 662408117466667000,
   733334257066667000, 0, 0, 0, 0, 0, 0, 0, 0, 0, 0, 0, 0, 0, 0, 0, 0, 0, 0, 0, 41888946982222200, 140157742035556000,
   173995439453333000, 236907842591111000, 254110530671111000, 234851948746667000, 144755734697778000,
   18999096762666700, 0, 0, 0, 0, 0, 0, 0, 0, 0, 0, 0, 416169769911111000, 722159455600000000, 720834774177778000,
   1055598181555560000, 1177313544711110000, 1107635888044440000, 1231924415555560000, 1306956481422220000,
   1321941207333330000, 1271128538088890000, 783985737200000000, 338763828044445000, 210001570022222000,
   128168202880000000, 96598289720000000, 0, 0, 0, 0, 0, 0, 0, 0, 7781565528000000, 249898512662222000,
   531973888755556000, 279717619004444000, 284719170586667000, 276728293671111000, 296013545066667000,
   287846239342222000, 264649953968889000, 273907484226667000, 286182474644444000, 241084692066667000,
   311379263422222000, 186986988737778000, 171475027897778000, 60984288297777800, 0, 0, 0, 0, 0, 0, 0, 0,
   123590139053333000, 0, 268006497404444000, 298868057688889000, 464242224266667000, 411495285688889000,
   375377201955556000, 387082462133333000, 442042087600000000, 530356136222222000, 599391967155555000,
   451918584044444000, 365521220488889000, 145211753346667000, 35694889048888900, 0, 0, 0, 0, 0, 0, 0, 0, 0,
   24074033351111100, 0, 0, 48423846617777800, 322029467600000000, 462149696533333000, 432124561200000000,
   557705532311111000, 674851916844445000, 1050422545733330000, 1093817585155560000, 708027566622222000,
   243655218782222000, 89030021346666700, 41129599733333300, 60951757404444400, 0, 0, 0, 0, 0, 0, 0, 0,
   26611560259555600, 0, 436913343155556000, 335578145066667000, 199397671080000000, 230224648973333000,
   424117858444444000, 926717229733333000, 1188045808800000000, 1331035203911110000, 1392316373244450000,
   829646216311111000, 452610231866667000, 268491823164444000, 171693952017778000, 93411727528888900, 0, 0, 0, 0, 0,
   0, 0, 0, 7781565528000000, 159006610546667000, 124872618235556000, 88161065502222200, 98420312817777800,
   99885375302222200, 166739584884444000, 177727993124444000, 86247604217777800, 79070878848888900, 86366591088888900,
   6514736343111110, 0, 0, 0, 0, 0, 0, 0, 0, 0, 0, 0, 0, 0, 0, 0, 0, 0, 0, 0, 0, 0, 0, 0, 0, 0, 0, 0, 0, 0, 0, 0, 0,
   0, 0, 0, 0, 121883879044444000, 0, 248744984768889000, 350691822266667000, 324327145111111000, 426899103288889000,
   365940312177778000, 507546411644445000, 478224646977778000, 259869084933333000, 260511789880000000,
   385678651511111000, 102394650155556000, 1454432795244440, 0, 0, 0, 0, 0, 0, 0, 0, 0, 0, 64078826160000000, 0, 0,
   1207763633155560, 276108741342222000, 370444815155556000, 347257028844444000, 489208952222222000,
   600391339644445000, 949242675333333000, 1111313930488890000, 726649305022222000, 257365378431111000,
   118391936755556000, 56035489515555600, 257736699528889000, 0, 0, 0]

/-- Atlanta_Office_Building_Loads.csv:7298-8017. -/
def november : List Nat :=
  [0, 0, 0, 0, 0, 13145939145777800, 0, 266843005093333000, 276224504431111000, 364252222577778000,
   230122074084444000, 439987659111111000, 806883383111111000, 1205846948088890000, 1424152688044440000,
   1621456952177780000, 1133015846266670000, 681736157244445000, 479291425822222000, 238150757173333000,
   144987260875555000, 0, 0, 0, 0, 0, 0, 0, 0, 7781565528000000, 234989106026667000, 307844825822222000,
   271716777671111000, 751712746444445000, 1268493828800000000, 1366130469466670000, 1799526959288890000,
   1831917178488890000, 1870667040800000000, 1837151428533330000, 1310666761688890000, 844906429066667000,
   583645256355555000, 371247830000000000, 222416062288889000, 0, 0, 0, 0, 0, 0, 0, 0, 7781565528000000,
   229194504017778000, 332796900222222000, 452586786177778000, 1032574515066670000, 1397078778800000000,
   1492391365555560000, 1641590937511110000, 1749860198088890000, 1773118321466670000, 1737220041066670000,
   1338485071555560000, 876845318755556000, 692544619822222000, 510424369955556000, 360656240044444000, 0, 0, 0, 0, 0,
   0, 0, 0, 7781565528000000, 156970352466667000, 174136992800000000, 185004655742222000, 182740681408889000,
   211184405026667000, 165217080462222000, 132228116982222000, 128465083915556000, 145109471528889000,
   344264772800000000, 0, 0, 0, 0, 0, 0, 0, 0, 0, 0, 0, 0, 0, 0, 0, 0, 0, 0, 0, 0, 0, 120919382017778000,
   143385627253333000, 200783311293333000, 184497642720000000, 0, 0, 0, 0, 0, 0, 0, 0, 0, 0, 0, 0, 0,
   5975661341333330, 210879318000000000, 477234066622222000, 772986778400000000, 1156484980844440000,
   1396369546711110000, 1401882214311110000, 1589670459466670000, 1634768242044440000, 1666803845200000000,
   1547441843066670000, 924522127111111000, 449837779155556000, 210049340613333000, 84772870386666700,
   37658758564444400, 0, 0, 0, 0, 0, 0, 0, 0, 4836083632888890, 0, 315778260800000000, 285049754800000000,
   472222550622222000, 599383175022222000, 760979654977778000, 1194551987466670000, 1301754469200000000,
   1350269460933330000, 1260402135422220000, 606856488355556000, 201871484328889000, 77473055151111100,
   99858119688888900, 186914600173333000, 0, 0, 0, 0, 0, 0, 0, 0, 56154183315555600, 0, 298862196266667000,
   191992057173333000, 438029944088889000, 600277041911111000, 764719242355556000, 1241285106844450000,
   1412133841777780000, 1511367720000000000, 1500494781777780000, 961150154577778000, 450901627288889000,
   264637351911111000, 107764885195556000, 43713900791111100, 0, 0, 0, 0, 0, 0, 0, 0, 19809965912888900, 0,
   259562825622222000, 294381138977778000, 189325403133333000, 354616044444444000, 350823704266667000,
   871159739200000000, 994053248222222000, 1130633178133330000, 1248652914577780000, 690191258800000000,
   344716102311111000, 232596473475555000, 81505127497777800, 45650221622222200, 0, 0, 0, 0, 0, 0, 0, 0, 0, 0, 0, 0,
   0, 0, 0, 0, 0, 0, 0, 0, 0, 0, 0, 0, 0, 0, 0, 0, 0, 0, 0, 0, 44787420271111100, 0, 65907003751111100,
   98910620786666700, 276938718728889000, 424384553155555000, 466756774400000000, 501614652355556000,
   573208994088889000, 658636292266667000, 550156020488889000, 0, 0, 0, 0, 0, 0, 0, 0, 0, 0, 0, 0, 0, 0, 0, 0, 0, 0,
   0, 74564617444444500, 122875631684445000, 143608068226667000, 130258092973333000, 82498345493333300, 0, 0, 0, 0, 0,
   0, 0, 0, 0, 0, 0, 0, 0, 221487026866667000, 0, 28676334158666700, 245943518017778000, 112146005235556000,
   355685754000000000, 215722025040000000, 236317597373333000, 260418300195555000, 262425544235556000,
   275003570182222000, 200671065057778000, 91361402035555500, 268140430902222000, 94735529737777800, 0, 0, 0, 0, 0, 0,
   0, 0, 0, 88634961488888900, 0, 0, 239221052871111000, 373958737777778000, 485633484666667000, 554950663866667000,
   733530614711111000, 1153481001955560000, 1213850720133330000, 1171490221733330000, 578217579377778000,
   168021184853333000, 61258602857777800, 58077315946666700, 247313332391111000, 0, 0, 0, 0, 0, 0, 0, 0,
   36558276542222200, 0, 219670865191111000, 178837267280000000, 443457621066667000, 587214862488889000,
   741575416711111000, 1195885461022220000, 1354477962088890000, 1410715377600000000, 1320604803066670000,
   690484329911111000, 247061877377778000, 71358419488888900, 42176156671111100, 18737384260444400, 0, 0, 0, 0, 0, 0,
   0, 0, 35688734555555600, 0, 335053547777778000, 376622754177778000, 422069291377778000, 259464939871111000,
   254502366746667000, 277768403044444000, 312091426222222000, 382536929200000000, 626310548711111000,
   301362092844444000, 99948385591111100, 53401073297777800, 71426705057777800, 160379355631111000, 0, 0, 0, 0, 0, 0,
   0, 0, 132304901613333000, 0, 434354832355556000, 299685726088889000, 195853269062222000, 206378624946667000,
   391299755422222000, 620320175200000000, 988710561866667000, 1080963486222220000, 1076291932711110000,
   513472309511111000, 158547661186667000, 43701298733333300, 86529831697777800, 329309354000000000, 0, 0, 0, 0, 0, 0,
   0, 0, 0, 0, 0, 0, 51225020297777800, 236302064604444000, 316551968533333000, 384676348311111000,
   443366769022222000, 467870444622222000, 400425989822222000, 0, 0, 0, 0, 0, 0, 0, 0, 0, 0, 0, 0, 0, 0, 0, 0, 0, 0,
   0, 0, 0, 0, 0, 0, 0, 0, 0, 0, 0, 0, 0, 0, 0, 0, 0, 0, 0, 2706763752266670, 0, 142194000115556000,
   189367019231111000, 236410793986667000, 268276122826667000, 118993025604444000, 303815098044444000,
   307964984977778000, 266846521946667000, 198165893200000000, 0, 0, 0, 0, 0, 0, 0, 0, 0, 0, 0, 0, 0, 0, 0, 0, 0, 0,
   22855355749777800, 209292924075556000, 428135863377778000, 457044397777778000, 295231045200000000,
   395519979422222000, 0, 33785530760000000, 0, 0, 0, 0, 0, 0, 0, 0, 0, 0, 0, 0, 0, 0, 0, 0, 37160537675555600,
   104494211595556000, 391293894000000000, 211672661497778000, 263535111462222000, 371652268133333000,
   291279860480000000, 0, 64755527355555600, 0, 0, 0, 0, 0, 0, 0, 0, 0, 0, 0, 0, 0, 0, 0, 0, 0, 0, 0, 0, 0, 0, 0, 0,
   0, 0, 0, 0, 0, 0, 0, 0, 0, 0, 0, 0, 0, 89597113946666700, 138298498906667000, 282963381560000000,
   262992343764444000, 280207340831111000, 295779088177778000, 389301010444444000, 345349135911111000,
   396929651466667000, 84730082004444500, 129317334706667000, 0, 0, 0, 0, 0, 0, 0, 0, 0, 0, 0, 0, 0, 0, 0, 0,
   74382034142222200, 229754269840000000, 288278812302222000, 268601724831111000, 233806271022222000,
   1003217581866670, 0, 0, 0, 0, 0, 0, 0, 0, 0, 0, 0, 0, 0, 0, 0, 0, 0, 0, 0, 4819378579555560, 0, 0, 0, 0, 0, 0, 0,
   0, 0, 0, 0, 0, 0, 0, 0, 0, 7781565528000000, 10767344700888900, 273525026426667000, 229082257782222000,
   392917507955556000, 956270520577778000, 1136019825155560000, 1450728376400000000, 1526355376622220000,
   1600701656088890000, 1616855735733330000, 1138074253644440000, 724972938266667000, 522534068266667000,
   355336999377778000, 198470980226667000, 0, 0, 0, 0, 0, 0, 0, 0, 7781565528000000, 188868798342222000,
   420305003288889000, 204011782653333000, 151212677417778000, 348323807688889000, 395021758533333000,
   834555157422222000, 916336650977778000, 965698618222222000, 893650016266667000, 378199476755556000,
   68420088528888900, 34630747844444500, 88885830360000000, 259748925777778000, 0, 0, 0, 0, 0, 0, 0, 0,
   29051816866222200, 0, 0, 133971597022222000, 272098063186667000, 266084243986667000, 207783607853333000,
   199290993195556000, 184047485493333000, 186202437373333000, 211145133497778000, 183098521235556000,
   96938545280000000, 193031580404445000, 134152714968889000, 22237356697777800, 0, 0, 0, 0, 0, 0, 0, 0,
   81404311035555600, 0, 0, 0, 22603461129777800, 100987908822222000, 9015541441333330, 179469714737778000,
   227098459431111000, 227198396680000000, 210458467884444000, 0, 0, 0, 0, 0, 0, 0]

/-- Atlanta_Office_Building_Loads.csv:8018-8761. -/
def december : List Nat :=
  [0, 0, 0, 0, 0, 0, 0, 0, 0, 0, 0, 40014757226666700, 145281211200000000, 407163694666667000, 448017807555556000,
   203690576715556000, 177208964186667000, 125283210862222000, 67133799422222200, 0, 0, 0, 0, 0, 0, 0, 0, 0, 0, 0, 0,
   0, 0, 0, 0, 0, 0, 0, 0, 0, 0, 0, 0, 0, 0, 0, 0, 0, 0, 0, 0, 0, 0, 0, 0, 0, 0, 0, 0, 0, 0, 0, 0, 0, 0, 0, 0, 0, 0,
   0, 0, 0, 0, 0, 0, 0, 0, 0, 0, 0, 0, 0, 0, 0, 155270833093333000, 389403585333333000, 240477155653333000,
   315602418133333000, 270833461342222000, 246812473862222000, 65288330635555600, 0, 0, 0, 0, 0, 0, 0, 0, 0, 0, 0, 0,
   0, 0, 0, 3200629604444440, 251001925395556000, 323506546000000000, 396756739511111000, 445641000844444000,
   407623816311111000, 364855949066667000, 185706854124445000, 30543285057777800, 198453982102222000,
   73144101768888900, 0, 0, 0, 0, 0, 0, 0, 0, 0, 23760857561777800, 0, 0, 75576591991111100, 204194365955556000,
   215916038115556000, 382422631466667000, 346600549555556000, 190269971324444000, 189598545408889000,
   225654204995556000, 306739947733333000, 242773953951111000, 75097713795555600, 0, 0, 0, 0, 0, 0, 0, 0, 0, 0, 0, 0,
   0, 16557198957777800, 49758785528888900, 300884386933333000, 452194070888889000, 411873347422222000,
   428261883955556000, 503836131377778000, 478634946533333000, 276209264733333000, 42110801813333300,
   160340377173333000, 145871749488889000, 0, 0, 0, 0, 0, 0, 0, 0, 0, 0, 0, 0, 44039502795555600, 61049643155555600,
   314186884666667000, 447859549155556000, 392328435022222000, 416284067644444000, 469203918177778000,
   408760932222222000, 432174383288889000, 50629792871111100, 111098862155556000, 0, 0, 0, 0, 0, 0, 0, 0, 0, 0, 0, 0,
   0, 0, 0, 0, 58510475048888900, 148455171333333000, 246472511373333000, 264597201168889000, 169662676146667000, 0,
   0, 0, 0, 0, 0, 0, 0, 0, 0, 0, 0, 0, 0, 0, 0, 0, 0, 0, 0, 0, 79360433106666700, 83692610271111100, 0, 0, 0, 0, 0, 0,
   0, 0, 0, 0, 0, 0, 0, 0, 136069693106667000, 0, 0, 188704971591111000, 137467642306667000, 406967337022222000,
   496846385377778000, 997986262533333000, 1124390763466670000, 1420723756044440000, 1382524867422220000,
   778317741911111000, 284774267955556000, 164179901800000000, 24949143688888900, 19103019778666700, 0, 0, 0, 0, 0, 0,
   0, 0, 0, 110381717146667000, 465613797066667000, 247607868857778000, 285108955164444000, 868009224755556000,
   1202479561022220000, 1643548652533330000, 1643416770533330000, 1605115307022220000, 1590842743911110000,
   997892479777778000, 611305307822222000, 430870216844444000, 245430350502222000, 171969731933333000, 0, 0, 0, 0, 0,
   0, 0, 0, 7781565528000000, 199052140240000000, 536302549066667000, 889538228577778000, 1332336439644440000,
   1416187015244440000, 1429307808888890000, 1505702655422220000, 1480369588577780000, 1444779032844440000,
   1415958419777780000, 822228586488889000, 411706296888889000, 246296082564444000, 76165371853333300,
   36302425462222200, 0, 0, 0, 0, 0, 0, 0, 0, 51481750591111100, 0, 322571649155556000, 407925679555556000,
   312882718222222000, 246701399911111000, 330173913777778000, 326261414444444000, 320317932311111000,
   438847612488889000, 401155736888889000, 263583761266667000, 94087842582222200, 182267957706667000,
   110194151635556000, 8577546665777780, 0, 0, 0, 0, 0, 0, 0, 0, 93548884808888900, 0, 0, 27447135304444500,
   87129455191111100, 184003817897778000, 391871244088889000, 437851170711111000, 226416482955555000,
   238098297444444000, 233781946120000000, 293496064222222000, 0, 0, 0, 0, 0, 0, 0, 0, 0, 0, 0, 0, 0, 0, 0, 0, 0, 0,
   0, 0, 3442882184888890, 0, 30547974195555500, 2173573618400000, 0, 0, 0, 0, 0, 0, 0, 0, 0, 0, 0, 0, 0, 0, 0, 0, 0,
   0, 0, 0, 0, 0, 0, 0, 0, 0, 0, 0, 0, 0, 0, 0, 0, 0, 0, 0, 0, 0, 0, 0, 0, 23391763804444400, 0, 253100607622222000,
   335982583200000000, 387665673644444000, 362068842800000000, 0, 0, 0, 0, 0, 0, 0, 0, 0, 0, 0, 0, 0, 0, 0, 0, 0, 0,
   137717925035556000, 277055947173333000, 243278329333333000, 309632559600000000, 469819367511111000,
   441441291822222000, 258070507524444000, 164011092840000000, 128314738435556000, 0, 0, 0, 0, 0, 0, 0, 0, 0, 0, 0, 0,
   0, 0, 67023018542222200, 136636785706667000, 262822069448889000, 246311029191111000, 249299475311111000,
   304653281422222000, 290122522662222000, 149676105582222000, 214743753671111000, 76188524471111100,
   56699881724444400, 0, 0, 0, 0, 0, 0, 0, 0, 0, 0, 0, 0, 0, 0, 0, 0, 54813382982222200, 114608388711111000,
   142926970964444000, 106070641102222000, 0, 0, 0, 0, 0, 0, 0, 0, 0, 0, 0, 0, 0, 0, 0, 0, 0, 0, 9731572780000000,
   21468807016000000, 260674737417778000, 301825145200000000, 298777205644444000, 370125367644444000, 0, 0, 0, 0, 0,
   0, 0, 0, 0, 0, 0, 0, 0, 0, 0, 0, 0, 0, 0, 0, 0, 0, 0, 0, 1507393675733330, 0, 0, 0, 0, 0, 0, 0, 0, 0, 0, 0, 0, 0,
   0, 0, 0, 0, 0, 0, 0, 0, 0, 0, 0, 0, 0, 0, 0, 0, 0, 0, 0, 0, 0, 0, 0, 0, 0, 0, 0, 0, 0, 0, 0, 0, 0, 0, 0, 0, 0, 0,
   0, 0, 0, 0, 0, 0, 0, 0, 0, 0, 0, 0, 0, 7196478361777780, 0, 83379317253333300, 335428678800000000,
   307047672400000000, 206878897333333000, 310623139955556000, 52982860822222200, 0, 0, 0, 0, 0, 0, 0, 0, 0, 0, 0, 0,
   0, 0, 0, 0, 0, 212469814920000000, 283074162440000000, 311950752088889000, 455643517866667000, 429097136622222000,
   368610190000000000, 204867843368889000, 58841352333333300, 197340018808889000, 132625814480000000, 0, 0, 0, 0, 0,
   0, 0, 0, 0, 0, 0, 0, 0, 35749693346666700, 162529325302222000, 125630793200000000, 189598545408889000,
   22245123082222200, 19197359369333300, 170729454991111000, 303908880800000000, 39704687991111100, 32835980360000000,
   0, 0, 0, 0, 0, 0, 0, 0, 0, 0, 0, 0, 0, 0, 0, 208275381177778000, 238559591373333000, 141652111631111000,
   117475503391111000, 126040506613333000, 150979978955556000, 144278321857778000, 58959459991111100,
   163161479688889000, 61081880977777800, 0, 0, 0, 0, 0, 0, 0, 0, 0, 126186162955556000, 0, 0, 0, 0, 6390122506666670,
   0, 0, 0, 0, 0, 0, 0, 0, 0, 0, 0, 0, 0, 0, 0, 0, 0, 0, 0, 0, 0, 0, 0, 0, 0, 0, 0, 0, 0, 0, 0, 0, 0, 0, 0, 0]

/-- The whole year. -/
def table : List Nat :=
  january ++ february ++ march ++ april ++ may ++ june ++ july ++ august ++ september ++ october ++ november ++ december

end Ghedt.Office.Rejected
