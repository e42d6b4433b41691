/-
The text of some files of /repo, GENERATED by tools/gen_source.py: each string goXxx is a file, byte for byte
(`tools/gen_source.py check` compares them).
-/
import Verif.Model.GoText

namespace Verif

/-- The beginning of /repo/AggregatorVerifierStep1.go:1-12: imports and signature. -/
def goHead1 : String := r#"package main

import (
	"github.com/consensys/gnark/frontend"
)

func VerifyProof1(
	api frontend.API,
	transcript []frontend.Variable,
	aux []frontend.Variable,
	buf [43]frontend.Variable,
) ([43]frontend.Variable, error) {
"#

/-- The text of /repo/AggregatorVerifierStep1.go:1-886. -/
def goStep1 : String := r#"package main

import (
	"github.com/consensys/gnark/frontend"
)

func VerifyProof1(
	api frontend.API,
	transcript []frontend.Variable,
	aux []frontend.Variable,
	buf [43]frontend.Variable,
) ([43]frontend.Variable, error) {
	buf[10], buf[11] = transcript[102], transcript[103]
	buf[12] = fr_from_string("1")
	err := ecc_mul(api, buf[:], 10)
	if err != nil {
		return [43]frontend.Variable{}, err
	}
	buf[17] = fr_mul(api,
		fr_from_string("21710372849001950800533397158415938114909991150039389063546734567764856596059"),
		buf[6],
	)
	buf[18] = fr_div(api,
		fr_from_string("1"),
		fr_add(api, buf[17], fr_neg(api, buf[6])),
		aux[0],
	)
	buf[19] = fr_mul(api,
		fr_from_string("8374374965308410102411073611984011876711565317741801500439755773472076597347"),
		buf[6],
	)
	buf[20] = fr_div(api,
		fr_from_string("1"),
		fr_add(api, buf[17], fr_neg(api, buf[19])),
		aux[1],
	)
	buf[21] = fr_mul(api, buf[18], buf[20])
	buf[22] = fr_div(api,
		fr_from_string("1"),
		fr_add(api, buf[6], fr_neg(api, buf[17])),
		aux[2],
	)
	buf[23] = fr_div(api,
		fr_from_string("1"),
		fr_add(api, buf[6], fr_neg(api, buf[19])),
		aux[3],
	)
	buf[24] = fr_mul(api, buf[22], buf[23])
	buf[25] = fr_div(api,
		fr_from_string("1"),
		fr_add(api, buf[19], fr_neg(api, buf[17])),
		aux[4],
	)
	buf[26] = fr_div(api,
		fr_from_string("1"),
		fr_add(api, buf[19], fr_neg(api, buf[6])),
		aux[5],
	)
	buf[27] = fr_mul(api, buf[25], buf[26])
	buf[28] =
		fr_neg(api, fr_mul(api, buf[18], buf[6]))
	buf[29] = fr_mul(api, buf[20], buf[19])
	buf[18] = fr_add(api,
		fr_mul(api, buf[28], buf[20]),
		fr_neg(api, fr_mul(api, buf[18], buf[29])),
	)
	buf[20] =
		fr_neg(api, fr_mul(api, buf[22], buf[17]))
	buf[30] = fr_mul(api, buf[23], buf[19])
	buf[22] = fr_add(api,
		fr_mul(api, buf[20], buf[23]),
		fr_neg(api, fr_mul(api, buf[22], buf[30])),
	)
	buf[31] =
		fr_neg(api, fr_mul(api, buf[25], buf[17]))
	buf[32] = fr_mul(api, buf[26], buf[6])
	buf[25] = fr_add(api,
		fr_mul(api, buf[31], buf[26]),
		fr_neg(api, fr_mul(api, buf[25], buf[32])),
	)
	buf[33] = fr_add(api,
		fr_mul(api,
			fr_add(api,
				fr_add(api,
					fr_mul(api, buf[21], transcript[81]),
					fr_mul(api, buf[24], transcript[79]),
				),
				fr_mul(api, buf[27], transcript[80]),
			),
			buf[9],
		),
		fr_add(api,
			fr_add(api,
				fr_mul(api, buf[18], transcript[81]),
				fr_mul(api, buf[22], transcript[79]),
			),
			fr_mul(api, buf[25], transcript[80]),
		),
	)
	buf[28] = fr_neg(api, fr_mul(api, buf[28], buf[29]))
	buf[20] = fr_neg(api, fr_mul(api, buf[20], buf[30]))
	buf[29] = fr_neg(api, fr_mul(api, buf[31], buf[32]))
	buf[31] = fr_mul(api,
		buf[7],
		fr_add(api,
			fr_mul(api, buf[33], buf[9]),
			fr_add(api,
				fr_add(api,
					fr_mul(api, buf[28], transcript[81]),
					fr_mul(api, buf[20], transcript[79]),
				),
				fr_mul(api, buf[29], transcript[80]),
			),
		),
	)
	buf[33] = fr_add(api,
		fr_mul(api,
			fr_add(api,
				fr_add(api,
					fr_mul(api, buf[21], transcript[84]),
					fr_mul(api, buf[24], transcript[82]),
				),
				fr_mul(api, buf[27], transcript[83]),
			),
			buf[9],
		),
		fr_add(api,
			fr_add(api,
				fr_mul(api, buf[18], transcript[84]),
				fr_mul(api, buf[22], transcript[82]),
			),
			fr_mul(api, buf[25], transcript[83]),
		),
	)
	buf[31] = fr_add(api,
		buf[31],
		fr_add(api,
			fr_mul(api, buf[33], buf[9]),
			fr_add(api,
				fr_add(api,
					fr_mul(api, buf[28], transcript[84]),
					fr_mul(api, buf[20], transcript[82]),
				),
				fr_mul(api, buf[29], transcript[83]),
			),
		),
	)
	buf[18] = fr_add(api,
		fr_mul(api,
			fr_add(api,
				fr_add(api,
					fr_mul(api, buf[21], transcript[87]),
					fr_mul(api, buf[24], transcript[85]),
				),
				fr_mul(api, buf[27], transcript[86]),
			),
			buf[9],
		),
		fr_add(api,
			fr_add(api,
				fr_mul(api, buf[18], transcript[87]),
				fr_mul(api, buf[22], transcript[85]),
			),
			fr_mul(api, buf[25], transcript[86]),
		),
	)
	buf[18] = fr_add(api,
		fr_mul(api, buf[7], buf[31]),
		fr_add(api,
			fr_mul(api, buf[18], buf[9]),
			fr_add(api,
				fr_add(api,
					fr_mul(api, buf[28], transcript[87]),
					fr_mul(api, buf[20], transcript[85]),
				),
				fr_mul(api, buf[29], transcript[86]),
			),
		),
	)
	buf[20] = fr_mul(api,
		fr_from_string("9741553891420464328295280489650144566903017206473301385034033384879943874347"),
		buf[6],
	)
	buf[21] = fr_div(api,
		fr_from_string("1"),
		fr_add(api, buf[20], fr_neg(api, buf[6])),
		aux[6],
	)
	buf[22] = fr_div(api,
		fr_from_string("1"),
		fr_add(api, buf[6], fr_neg(api, buf[20])),
		aux[7],
	)
	buf[24] = fr_neg(api, fr_mul(api, buf[21], buf[6]))
	buf[25] = fr_neg(api, fr_mul(api, buf[22], buf[20]))
	buf[27] = fr_mul(api,
		buf[7],
		fr_add(api,
			fr_mul(api,
				fr_add(api,
					fr_mul(api, buf[21], transcript[93]),
					fr_mul(api, buf[22], transcript[92]),
				),
				buf[9],
			),
			fr_add(api,
				fr_mul(api, buf[24], transcript[93]),
				fr_mul(api, buf[25], transcript[92]),
			),
		),
	)
	buf[21] = fr_add(api,
		buf[27],
		fr_add(api,
			fr_mul(api,
				fr_add(api,
					fr_mul(api, buf[21], transcript[98]),
					fr_mul(api, buf[22], transcript[97]),
				),
				buf[9],
			),
			fr_add(api,
				fr_mul(api, buf[24], transcript[98]),
				fr_mul(api, buf[25], transcript[97]),
			),
		),
	)
	buf[17] = fr_add(api,
		buf[9],
		fr_neg(api, buf[17]),
	)
	buf[22] = fr_add(api,
		buf[9],
		fr_neg(api, buf[19]),
	)
	buf[24] = fr_mul(api,
		fr_from_string("11211301017135681023579411905410872569206244553457844956874280139879520583390"),
		buf[6],
	)
	buf[25] = fr_add(api,
		buf[9],
		fr_neg(api, buf[24]),
	)
	buf[20] = fr_add(api,
		buf[9],
		fr_neg(api, buf[20]),
	)
	buf[27] = fr_div(api,
		fr_from_string("1"),
		fr_mul(api, buf[20], buf[25]),
		aux[8],
	)
	buf[28] = fr_mul(api,
		fr_mul(api,
			fr_mul(api, buf[17], buf[22]),
			buf[25],
		),
		buf[27],
	)
	buf[29] = fr_mul(api,
		buf[7],
		fr_add(api,
			fr_mul(api,
				buf[7],
				fr_add(api,
					fr_mul(api, buf[7], transcript[44]),
					transcript[45],
				),
			),
			transcript[46],
		),
	)
	buf[29] = fr_add(api,
		fr_mul(api,
			buf[7],
			fr_add(api,
				fr_mul(api,
					buf[7],
					fr_add(api, buf[29], transcript[47]),
				),
				transcript[48],
			),
		),
		transcript[51],
	)
	buf[29] = fr_mul(api,
		buf[7],
		fr_add(api,
			fr_mul(api,
				buf[7],
				fr_add(api,
					fr_mul(api, buf[7], buf[29]),
					transcript[94],
				),
			),
			transcript[99],
		),
	)
	buf[29] = fr_add(api,
		fr_mul(api,
			buf[7],
			fr_add(api,
				fr_mul(api,
					buf[7],
					fr_add(api, buf[29], transcript[58]),
				),
				transcript[59],
			),
		),
		transcript[60],
	)
	buf[29] = fr_mul(api,
		buf[7],
		fr_add(api,
			fr_mul(api,
				buf[7],
				fr_add(api,
					fr_mul(api, buf[7], buf[29]),
					transcript[61],
				),
			),
			transcript[62],
		),
	)
	buf[29] = fr_add(api,
		fr_mul(api,
			buf[7],
			fr_add(api,
				fr_mul(api,
					buf[7],
					fr_add(api, buf[29], transcript[63]),
				),
				transcript[64],
			),
		),
		transcript[65],
	)
	buf[29] = fr_mul(api,
		buf[7],
		fr_add(api,
			fr_mul(api,
				buf[7],
				fr_add(api,
					fr_mul(api, buf[7], buf[29]),
					transcript[66],
				),
			),
			transcript[67],
		),
	)
	buf[29] = fr_add(api,
		fr_mul(api,
			buf[7],
			fr_add(api,
				fr_mul(api,
					buf[7],
					fr_add(api, buf[29], transcript[68]),
				),
				transcript[69],
			),
		),
		transcript[70],
	)
	buf[29] = fr_mul(api,
		buf[7],
		fr_add(api,
			fr_mul(api,
				buf[7],
				fr_add(api,
					fr_mul(api, buf[7], buf[29]),
					transcript[72],
				),
			),
			transcript[73],
		),
	)
	buf[29] = fr_add(api,
		fr_mul(api,
			buf[7],
			fr_add(api,
				fr_mul(api,
					buf[7],
					fr_add(api, buf[29], transcript[74]),
				),
				transcript[75],
			),
		),
		transcript[76],
	)
	buf[29] = fr_mul(api,
		buf[7],
		fr_add(api,
			fr_mul(api,
				buf[7],
				fr_add(api,
					fr_mul(api, buf[7], buf[29]),
					transcript[77],
				),
			),
			transcript[78],
		),
	)
	buf[31] = fr_add(api,
		fr_add(api,
			fr_add(api,
				fr_add(api,
					transcript[58],
					fr_mul(api,
						transcript[50],
						transcript[59],
					),
				),
				fr_mul(api, transcript[45], transcript[60]),
			),
			fr_mul(api, transcript[46], transcript[61]),
		),
		fr_mul(api, transcript[47], transcript[62]),
	)
	buf[31] = fr_add(api,
		fr_add(api,
			fr_add(api,
				fr_add(api,
					buf[31],
					fr_mul(api,
						transcript[48],
						transcript[63],
					),
				),
				fr_mul(api, transcript[49], transcript[64]),
			),
			fr_mul(api,
				fr_mul(api, transcript[45], transcript[46]),
				transcript[65],
			),
		),
		fr_mul(api,
			fr_mul(api, transcript[47], transcript[48]),
			transcript[66],
		),
	)
	buf[33] = fr_add(api,
		transcript[70],
		fr_from_string("21888242871839275222246405745257275088548364400416034343698204186575808495615"),
	)
	buf[34] = fr_add(api,
		transcript[70],
		fr_from_string("21888242871839275222246405745257275088548364400416034343698204186575808495614"),
	)
	buf[35] = fr_mul(api,
		fr_mul(api,
			fr_mul(api,
				fr_add(api,
					transcript[51],
					fr_neg(api, transcript[52]),
				),
				transcript[70],
			),
			buf[33],
		),
		buf[34],
	)
	buf[36] = fr_add(api,
		fr_add(api,
			transcript[51],
			fr_neg(api, transcript[53]),
		),
		fr_neg(api, fr_mul(api, transcript[54], fr_from_string("262144"))),
	)
	buf[37] = fr_mul(api,
		fr_add(api,
			fr_add(api,
				buf[36],
				fr_neg(api, fr_mul(api,
					transcript[52],
					fr_from_string("68719476736"),
				)),
			),
			fr_neg(api, fr_mul(api,
				transcript[55],
				fr_from_string("18014398509481984"),
			)),
		),
		transcript[70],
	)
	buf[38] = fr_add(api,
		transcript[70],
		fr_from_string("21888242871839275222246405745257275088548364400416034343698204186575808495616"),
	)
	buf[31] = fr_mul(api,
		fr_add(api,
			fr_mul(api,
				fr_add(api,
					fr_mul(api, buf[31], buf[5]),
					buf[35],
				),
				buf[5],
			),
			fr_mul(api,
				fr_mul(api, buf[37], buf[38]),
				buf[34],
			),
		),
		buf[5],
	)
	buf[34] = fr_add(api,
		fr_add(api,
			fr_add(api,
				buf[36],
				fr_neg(api, fr_mul(api,
					transcript[56],
					fr_from_string("68719476736"),
				)),
			),
			fr_neg(api, fr_mul(api,
				transcript[52],
				fr_from_string("18014398509481984"),
			)),
		),
		fr_neg(api, fr_mul(api,
			transcript[55],
			fr_from_string("4722366482869645213696"),
		)),
	)
	buf[34] = fr_mul(api,
		fr_mul(api,
			fr_add(api,
				buf[34],
				fr_neg(api, fr_mul(api,
					transcript[57],
					fr_from_string("1237940039285380274899124224"),
				)),
			),
			transcript[70],
		),
		buf[38],
	)
	buf[35] = fr_pow(api, buf[6], fr_from_string("8388608"))
	buf[36] = fr_add(api, buf[35], fr_neg(api, fr_from_string("1")))
	buf[37] = fr_div(api,
		fr_mul(api,
			fr_from_string("21888240262557392955334514970720457388010314637169927192662615958087340972065"),
			buf[36],
		),
		fr_add(api, buf[6], fr_neg(api, fr_from_string("1"))),
		aux[9],
	)
	buf[31] = fr_mul(api,
		fr_add(api,
			fr_mul(api,
				fr_add(api,
					buf[31],
					fr_mul(api, buf[34], buf[33]),
				),
				buf[5],
			),
			fr_mul(api,
				buf[37],
				fr_add(api,
					fr_from_string("1"),
					fr_neg(api, transcript[79]),
				),
			),
		),
		buf[5],
	)
	buf[33] = fr_div(api,
		fr_mul(api,
			fr_from_string("4976187549286291281196346419790865785215437125361463174887299780224677482739"),
			buf[36],
		),
		fr_add(api,
			buf[6],
			fr_neg(api, fr_from_string("21710372849001950800533397158415938114909991150039389063546734567764856596059")),
		),
		aux[10],
	)
	buf[31] = fr_mul(api,
		fr_add(api,
			buf[31],
			fr_mul(api,
				buf[33],
				fr_add(api,
					fr_mul(api,
						transcript[88],
						transcript[88],
					),
					fr_neg(api, transcript[88]),
				),
			),
		),
		buf[5],
	)
	buf[31] = fr_add(api,
		fr_mul(api,
			fr_add(api,
				buf[31],
				fr_mul(api,
					fr_add(api,
						transcript[82],
						fr_neg(api, transcript[81]),
					),
					buf[37],
				),
			),
			buf[5],
		),
		fr_mul(api,
			fr_add(api,
				transcript[85],
				fr_neg(api, transcript[84]),
			),
			buf[37],
		),
	)
	buf[34] = fr_add(api, transcript[46], buf[4])
	buf[38] = fr_add(api, transcript[45], buf[4])
	buf[39] = fr_mul(api, buf[3], buf[6])
	buf[34] = fr_add(api,
		fr_mul(api,
			fr_add(api,
				buf[34],
				fr_mul(api, buf[3], transcript[73]),
			),
			fr_mul(api,
				fr_add(api,
					buf[38],
					fr_mul(api, buf[3], transcript[72]),
				),
				transcript[80],
			),
		),
		fr_neg(api, fr_mul(api,
			fr_add(api,
				buf[34],
				fr_mul(api,
					fr_from_string("4131629893567559867359510883348571134090853742863529169391034518566172092834"),
					buf[39],
				),
			),
			fr_mul(api,
				fr_add(api, buf[38], buf[39]),
				transcript[79],
			),
		)),
	)
	buf[38] = fr_add(api,
		fr_add(api,
			fr_add(api,
				fr_div(api,
					fr_mul(api,
						fr_from_string("17545179510056424625657753961500172777187948487824275719647175633757629801999"),
						buf[36],
					),
					fr_add(api,
						buf[6],
						fr_neg(api, fr_from_string("1887003188133998471169152042388914354640772748308168868301418279904560637395")),
					),
					aux[11],
				),
				fr_div(api,
					fr_mul(api,
						fr_from_string("12181902470161097505840471953356915228510866946798053228669051859673065660797"),
						buf[36],
					),
					fr_add(api,
						buf[6],
						fr_neg(api, fr_from_string("2785514556381676080176937710880804108647911392478702105860685610379369825016")),
					),
					aux[12],
				),
			),
			fr_div(api,
				fr_mul(api,
					fr_from_string("3094683119308499972127188652296432785995218440930254516456812473854441617488"),
					buf[36],
				),
				fr_add(api,
					buf[6],
					fr_neg(api, fr_from_string("14655294445420895451632927078981340937842238432098198055057679026789553137428")),
				),
				aux[13],
			),
		),
		fr_div(api,
			fr_mul(api,
				fr_from_string("17403859010271654340651602860211012227656903909453797585120745724534928821531"),
				buf[36],
			),
			fr_add(api,
				buf[6],
				fr_neg(api, fr_from_string("8734126352828345679573237859165904705806588461301144420590422589042130041188")),
			),
			aux[14],
		),
	)
	buf[38] = fr_add(api,
		fr_from_string("1"),
		fr_neg(api, fr_add(api,
			buf[33],
			fr_add(api,
				buf[38],
				fr_div(api,
					fr_mul(api,
						fr_from_string("7444483286096152693477325065105185543054922671492455540957072536952082259082"),
						buf[36],
					),
					fr_add(api,
						buf[6],
						fr_neg(api, fr_from_string("9741553891420464328295280489650144566903017206473301385034033384879943874347")),
					),
					aux[15],
				),
			),
		)),
	)
	buf[31] = fr_add(api,
		fr_mul(api,
			fr_add(api,
				fr_mul(api, buf[31], buf[5]),
				fr_mul(api,
					fr_add(api,
						transcript[88],
						fr_neg(api, transcript[87]),
					),
					buf[37],
				),
			),
			buf[5],
		),
		fr_mul(api, buf[34], buf[38]),
	)
	buf[34] = fr_add(api, transcript[48], buf[4])
	buf[40] = fr_add(api, transcript[47], buf[4])
	buf[41] = fr_pow(api,
		fr_from_string("4131629893567559867359510883348571134090853742863529169391034518566172092834"),
		fr_from_string("2"),
	)
	buf[41] = fr_mul(api, buf[39], buf[41])
	buf[34] = fr_add(api,
		fr_mul(api,
			fr_add(api,
				buf[34],
				fr_mul(api, buf[3], transcript[75]),
			),
			fr_mul(api,
				fr_add(api,
					buf[40],
					fr_mul(api, buf[3], transcript[74]),
				),
				transcript[83],
			),
		),
		fr_neg(api, fr_mul(api,
			fr_add(api,
				buf[34],
				fr_mul(api,
					fr_from_string("4131629893567559867359510883348571134090853742863529169391034518566172092834"),
					buf[41],
				),
			),
			fr_mul(api,
				fr_add(api, buf[40], buf[41]),
				transcript[82],
			),
		)),
	)
	buf[40] = fr_add(api, transcript[51], buf[4])
	buf[41] = fr_add(api, transcript[49], buf[4])
	buf[42] = fr_pow(api,
		fr_from_string("4131629893567559867359510883348571134090853742863529169391034518566172092834"),
		fr_from_string("4"),
	)
	buf[42] = fr_mul(api, buf[39], buf[42])
	buf[40] = fr_add(api,
		fr_mul(api,
			fr_add(api,
				buf[40],
				fr_mul(api, buf[3], transcript[77]),
			),
			fr_mul(api,
				fr_add(api,
					buf[41],
					fr_mul(api, buf[3], transcript[76]),
				),
				transcript[86],
			),
		),
		fr_neg(api, fr_mul(api,
			fr_add(api,
				buf[40],
				fr_mul(api,
					fr_from_string("4131629893567559867359510883348571134090853742863529169391034518566172092834"),
					buf[42],
				),
			),
			fr_mul(api,
				fr_add(api, buf[41], buf[42]),
				transcript[85],
			),
		)),
	)
	buf[31] = fr_mul(api,
		fr_add(api,
			fr_mul(api,
				fr_add(api,
					fr_mul(api, buf[31], buf[5]),
					fr_mul(api, buf[34], buf[38]),
				),
				buf[5],
			),
			fr_mul(api, buf[40], buf[38]),
		),
		buf[5],
	)
	buf[34] = fr_add(api, transcript[44], buf[4])
	buf[40] = fr_pow(api,
		fr_from_string("4131629893567559867359510883348571134090853742863529169391034518566172092834"),
		fr_from_string("6"),
	)
	buf[34] = fr_mul(api,
		fr_add(api,
			fr_mul(api,
				fr_add(api,
					buf[34],
					fr_mul(api, buf[3], transcript[78]),
				),
				transcript[89],
			),
			fr_neg(api, fr_mul(api,
				fr_add(api,
					buf[34],
					fr_mul(api, buf[39], buf[40]),
				),
				transcript[88],
			)),
		),
		buf[38],
	)
	buf[31] = fr_add(api,
		fr_mul(api,
			fr_add(api,
				fr_mul(api,
					fr_add(api, buf[31], buf[34]),
					buf[5],
				),
				fr_mul(api,
					buf[37],
					fr_add(api,
						fr_from_string("1"),
						fr_neg(api, transcript[90]),
					),
				),
			),
			buf[5],
		),
		fr_mul(api,
			buf[33],
			fr_add(api,
				fr_mul(api, transcript[90], transcript[90]),
				fr_neg(api, transcript[90]),
			),
		),
	)
	buf[34] = fr_add(api,
		fr_add(api,
			fr_mul(api, transcript[68], buf[2]),
			transcript[69],
		),
		buf[4],
	)
	buf[39] = fr_mul(api,
		fr_mul(api,
			transcript[90],
			fr_add(api,
				fr_add(api,
					fr_mul(api, transcript[67], buf[2]),
					transcript[52],
				),
				buf[3],
			),
		),
		buf[34],
	)

	return buf, nil
}
"#

/-- The beginning of /repo/AggregatorVerifierStep2.go:1-12: imports and signature. -/
def goHead2 : String := r#"package main

import (
	"github.com/consensys/gnark/frontend"
)

func VerifyProof2(
	api frontend.API,
	transcript []frontend.Variable,
	aux []frontend.Variable,
	buf [43]frontend.Variable,
) ([43]frontend.Variable, error) {
"#

/-- The text of /repo/AggregatorVerifierStep2.go:1-565. -/
def goStep2 : String := r#"package main

import (
	"github.com/consensys/gnark/frontend"
)

func VerifyProof2(
	api frontend.API,
	transcript []frontend.Variable,
	aux []frontend.Variable,
	buf [43]frontend.Variable,
) ([43]frontend.Variable, error) {
	buf[39] = fr_mul(api,
		fr_add(api,
			fr_mul(api,
				fr_mul(api,
					transcript[91],
					fr_add(api, transcript[92], buf[3]),
				),
				fr_add(api, transcript[94], buf[4]),
			),
			fr_neg(api, buf[39]),
		),
		buf[38],
	)
	buf[40] = fr_add(api,
		transcript[92],
		fr_neg(api, transcript[94]),
	)
	buf[31] = fr_mul(api,
		fr_add(api,
			fr_mul(api,
				fr_add(api,
					fr_mul(api, buf[31], buf[5]),
					buf[39],
				),
				buf[5],
			),
			fr_mul(api, buf[37], buf[40]),
		),
		buf[5],
	)
	buf[31] = fr_mul(api,
		fr_add(api,
			buf[31],
			fr_mul(api,
				fr_mul(api,
					buf[40],
					fr_add(api,
						transcript[92],
						fr_neg(api, transcript[93]),
					),
				),
				buf[38],
			),
		),
		buf[5],
	)
	buf[31] = fr_add(api,
		fr_mul(api,
			fr_add(api,
				buf[31],
				fr_mul(api,
					buf[37],
					fr_add(api,
						1,
						fr_neg(api, transcript[95]),
					),
				),
			),
			buf[5],
		),
		fr_mul(api,
			buf[33],
			fr_add(api,
				fr_mul(api, transcript[95], transcript[95]),
				fr_neg(api, transcript[95]),
			),
		),
	)
	buf[33] = fr_mul(api,
		fr_mul(api,
			transcript[95],
			fr_add(api,
				fr_add(api,
					fr_mul(api, 18, buf[2]),
					transcript[53],
				),
				buf[3],
			),
		),
		buf[34],
	)
	buf[33] = fr_mul(api,
		fr_add(api,
			fr_mul(api,
				fr_mul(api,
					transcript[96],
					fr_add(api, transcript[97], buf[3]),
				),
				fr_add(api, transcript[99], buf[4]),
			),
			fr_neg(api, buf[33]),
		),
		buf[38],
	)
	buf[34] = fr_add(api,
		transcript[97],
		fr_neg(api, transcript[99]),
	)
	buf[31] = fr_mul(api,
		fr_add(api,
			fr_mul(api,
				fr_add(api,
					fr_mul(api, buf[31], buf[5]),
					buf[33],
				),
				buf[5],
			),
			fr_mul(api, buf[37], buf[34]),
		),
		buf[5],
	)
	buf[31] = fr_div(api,
		fr_add(api,
			buf[31],
			fr_mul(api,
				fr_mul(api,
					buf[34],
					fr_add(api,
						transcript[97],
						fr_neg(api, transcript[98]),
					),
				),
				buf[38],
			),
		),
		buf[36],
		aux[16],
	)
	buf[20] = fr_mul(api, buf[17], buf[20])
	buf[33] = fr_mul(api,
		fr_mul(api,
			fr_mul(api, buf[20], buf[22]),
			buf[25],
		),
		buf[27],
	)
	buf[18] = fr_add(api,
		fr_mul(api,
			buf[8],
			fr_add(api,
				fr_mul(api, buf[8], buf[18]),
				fr_mul(api, buf[21], buf[28]),
			),
		),
		fr_mul(api,
			fr_add(api,
				fr_mul(api,
					buf[7],
					fr_add(api, buf[29], buf[31]),
				),
				transcript[71],
			),
			buf[33],
		),
	)
	buf[21] = fr_neg(api, buf[30])
	buf[29] = fr_neg(api, buf[32])
	buf[30] = fr_mul(api,
		buf[7],
		fr_add(api,
			fr_mul(api,
				fr_add(api,
					fr_mul(api, buf[23], transcript[49]),
					fr_mul(api, buf[26], transcript[50]),
				),
				buf[9],
			),
			fr_add(api,
				fr_mul(api, buf[21], transcript[49]),
				fr_mul(api, buf[29], transcript[50]),
			),
		),
	)
	buf[30] = fr_add(api,
		buf[30],
		fr_add(api,
			fr_mul(api,
				fr_add(api,
					fr_mul(api, buf[23], transcript[88]),
					fr_mul(api, buf[26], transcript[89]),
				),
				buf[9],
			),
			fr_add(api,
				fr_mul(api, buf[21], transcript[88]),
				fr_mul(api, buf[29], transcript[89]),
			),
		),
	)
	buf[30] = fr_add(api,
		fr_mul(api, buf[7], buf[30]),
		fr_add(api,
			fr_mul(api,
				fr_add(api,
					fr_mul(api, buf[23], transcript[90]),
					fr_mul(api, buf[26], transcript[91]),
				),
				buf[9],
			),
			fr_add(api,
				fr_mul(api, buf[21], transcript[90]),
				fr_mul(api, buf[29], transcript[91]),
			),
		),
	)
	buf[30] = fr_add(api,
		fr_mul(api, buf[7], buf[30]),
		fr_add(api,
			fr_mul(api,
				fr_add(api,
					fr_mul(api, buf[23], transcript[95]),
					fr_mul(api, buf[26], transcript[96]),
				),
				buf[9],
			),
			fr_add(api,
				fr_mul(api, buf[21], transcript[95]),
				fr_mul(api, buf[29], transcript[96]),
			),
		),
	)
	buf[25] = fr_mul(api,
		fr_mul(api, buf[20], buf[25]),
		buf[27],
	)
	buf[31] = fr_div(api,
		1,
		fr_add(api, buf[6], fr_neg(api, buf[24])),
		aux[17],
	)
	buf[32] = fr_mul(api, buf[23], buf[31])
	buf[34] = fr_div(api,
		1,
		fr_add(api, buf[19], fr_neg(api, buf[24])),
		aux[18],
	)
	buf[36] = fr_mul(api, buf[26], buf[34])
	buf[37] = fr_div(api,
		1,
		fr_add(api, buf[24], fr_neg(api, buf[6])),
		aux[19],
	)
	buf[38] = fr_div(api,
		1,
		fr_add(api, buf[24], fr_neg(api, buf[19])),
		aux[20],
	)
	buf[39] = fr_mul(api, buf[37], buf[38])
	buf[40] = fr_mul(api, buf[31], buf[24])
	buf[23] = fr_add(api,
		fr_mul(api, buf[21], buf[31]),
		fr_neg(api, fr_mul(api, buf[23], buf[40])),
	)
	buf[24] = fr_mul(api, buf[34], buf[24])
	buf[26] = fr_add(api,
		fr_mul(api, buf[29], buf[34]),
		fr_neg(api, fr_mul(api, buf[26], buf[24])),
	)
	buf[31] = fr_neg(api, fr_mul(api, buf[37], buf[6]))
	buf[19] = fr_mul(api, buf[38], buf[19])
	buf[34] = fr_add(api,
		fr_mul(api, buf[31], buf[38]),
		fr_neg(api, fr_mul(api, buf[37], buf[19])),
	)
	buf[37] = fr_add(api,
		fr_mul(api,
			fr_add(api,
				fr_add(api,
					fr_mul(api, buf[32], transcript[52]),
					fr_mul(api, buf[36], transcript[55]),
				),
				fr_mul(api, buf[39], transcript[57]),
			),
			buf[9],
		),
		fr_add(api,
			fr_add(api,
				fr_mul(api, buf[23], transcript[52]),
				fr_mul(api, buf[26], transcript[55]),
			),
			fr_mul(api, buf[34], transcript[57]),
		),
	)
	buf[21] = fr_neg(api, fr_mul(api, buf[21], buf[40]))
	buf[24] = fr_neg(api, fr_mul(api, buf[29], buf[24]))
	buf[19] = fr_neg(api, fr_mul(api, buf[31], buf[19]))
	buf[29] = fr_mul(api,
		buf[7],
		fr_add(api,
			fr_mul(api, buf[37], buf[9]),
			fr_add(api,
				fr_add(api,
					fr_mul(api, buf[21], transcript[52]),
					fr_mul(api, buf[24], transcript[55]),
				),
				fr_mul(api, buf[19], transcript[57]),
			),
		),
	)
	buf[23] = fr_add(api,
		fr_mul(api,
			fr_add(api,
				fr_add(api,
					fr_mul(api, buf[32], transcript[53]),
					fr_mul(api, buf[36], transcript[54]),
				),
				fr_mul(api, buf[39], transcript[56]),
			),
			buf[9],
		),
		fr_add(api,
			fr_add(api,
				fr_mul(api, buf[23], transcript[53]),
				fr_mul(api, buf[26], transcript[54]),
			),
			fr_mul(api, buf[34], transcript[56]),
		),
	)
	buf[19] = fr_add(api,
		buf[29],
		fr_add(api,
			fr_mul(api, buf[23], buf[9]),
			fr_add(api,
				fr_add(api,
					fr_mul(api, buf[21], transcript[53]),
					fr_mul(api, buf[24], transcript[54]),
				),
				fr_mul(api, buf[19], transcript[56]),
			),
		),
	)
	buf[20] = fr_mul(api, buf[20], buf[27])
	buf[18] = fr_add(api,
		fr_mul(api,
			buf[8],
			fr_add(api,
				fr_mul(api, buf[8], buf[18]),
				fr_mul(api, buf[30], buf[25]),
			),
		),
		fr_mul(api, buf[19], buf[20]),
	)
	buf[12], buf[13] = fr_from_string("1"), fr_from_string("21888242871839275222246405745257275088696311157297823662689037894645226208581")
	buf[14] = buf[18]
	err := ecc_mul(api, buf[:], 12)
	if err != nil {
		return [43]frontend.Variable{}, err
	}
	buf[19] = fr_mul(api, buf[8], buf[8])
	buf[21] = fr_mul(api, buf[19], buf[33])
	buf[23] = fr_mul(api, buf[7], buf[7])
	buf[24] = fr_mul(api, buf[23], buf[23])
	buf[26] = fr_mul(api, buf[24], buf[24])
	buf[27] = fr_mul(api, buf[26], buf[26])
	buf[29] = fr_mul(api, buf[27], buf[26])
	buf[30] = fr_mul(api, buf[29], buf[24])
	buf[14], buf[15] = transcript[0], transcript[1]
	buf[16] = fr_mul(api, buf[21], buf[30])
	err = ecc_mul_add(api, buf[:], 12)
	if err != nil {
		return [43]frontend.Variable{}, err
	}
	buf[31] = fr_mul(api, buf[29], buf[23])
	buf[14], buf[15] = transcript[2], transcript[3]
	buf[16] = fr_mul(api,
		buf[21],
		fr_mul(api, buf[31], buf[7]),
	)
	err = ecc_mul_add(api, buf[:], 12)
	if err != nil {
		return [43]frontend.Variable{}, err
	}
	buf[14], buf[15] = transcript[4], transcript[5]
	buf[16] = fr_mul(api, buf[21], buf[31])
	err = ecc_mul_add(api, buf[:], 12)
	if err != nil {
		return [43]frontend.Variable{}, err
	}
	buf[14], buf[15] = transcript[6], transcript[7]
	buf[16] = fr_mul(api,
		buf[21],
		fr_mul(api, buf[29], buf[7]),
	)
	err = ecc_mul_add(api, buf[:], 12)
	if err != nil {
		return [43]frontend.Variable{}, err
	}
	buf[25] = fr_mul(api, buf[8], buf[25])
	buf[31] = fr_mul(api, buf[23], buf[7])
	buf[14], buf[15] = transcript[8], transcript[9]
	buf[16] = fr_mul(api, buf[25], buf[31])
	err = ecc_mul_add(api, buf[:], 12)
	if err != nil {
		return [43]frontend.Variable{}, err
	}
	buf[14], buf[15] = transcript[10], transcript[11]
	buf[16] = fr_mul(api, buf[21], buf[29])
	err = ecc_mul_add(api, buf[:], 12)
	if err != nil {
		return [43]frontend.Variable{}, err
	}
	buf[14], buf[15] = transcript[12], transcript[13]
	buf[16] = fr_mul(api, buf[20], buf[7])
	err = ecc_mul_add(api, buf[:], 12)
	if err != nil {
		return [43]frontend.Variable{}, err
	}
	buf[14], buf[15] = transcript[14], transcript[15]
	buf[16] = buf[20]
	err = ecc_mul_add(api, buf[:], 12)
	if err != nil {
		return [43]frontend.Variable{}, err
	}
	buf[20] = fr_mul(api, buf[27], buf[23])
	buf[14], buf[15] = fr_from_string("7302810833326292183657845455542786945088085612690237136517265240120492143686"), fr_from_string("12265020872042776853325862543934338413628778238311540007481750568301839403357")
	buf[16] = fr_mul(api,
		buf[21],
		fr_mul(api, buf[20], buf[7]),
	)
	err = ecc_mul_add(api, buf[:], 12)
	if err != nil {
		return [43]frontend.Variable{}, err
	}
	buf[14], buf[15] = fr_from_string("15714457855017303792793529634633875645702708944223275612000098593544931343989"), fr_from_string("15257349176403661815620892222123615612513039066905856829097618251943836626674")
	buf[16] = fr_mul(api, buf[21], buf[20])
	err = ecc_mul_add(api, buf[:], 12)
	if err != nil {
		return [43]frontend.Variable{}, err
	}
	buf[20] = fr_mul(api, buf[26], buf[24])
	buf[14], buf[15] = fr_from_string("15488644080723619432119612346004359086916581306660788742559926675716559909239"), fr_from_string("8754616038193501373921013994731307318251353370144049595366428636287857472101")
	buf[16] = fr_mul(api, buf[21], buf[20])
	err = ecc_mul_add(api, buf[:], 12)
	if err != nil {
		return [43]frontend.Variable{}, err
	}
	buf[29] = fr_mul(api, buf[26], buf[23])
	buf[14], buf[15] = fr_from_string("9621060932553241457331309181312468446375012848693562416915297961501104714797"), fr_from_string("18774224011527979955178720803820949077824414817387957068075380161701868796982")
	buf[16] = fr_mul(api,
		buf[21],
		fr_mul(api, buf[29], buf[7]),
	)
	err = ecc_mul_add(api, buf[:], 12)
	if err != nil {
		return [43]frontend.Variable{}, err
	}
	buf[14], buf[15] = fr_from_string("7332275780326935691999111227339181700750973508937555651107089016408829877447"), fr_from_string("10101962784746658718602667114782992736503033294933308373536577801383886245995")
	buf[16] = fr_mul(api, buf[21], buf[29])
	err = ecc_mul_add(api, buf[:], 12)
	if err != nil {
		return [43]frontend.Variable{}, err
	}
	buf[14], buf[15] = fr_from_string("6588502116763777047662055789514359601800459134197048587585162560883404012798"), fr_from_string("11714447983073049655392713639630119352182916653299642193786804830268642535746")
	buf[16] = fr_mul(api,
		buf[21],
		fr_mul(api, buf[27], buf[7]),
	)
	err = ecc_mul_add(api, buf[:], 12)
	if err != nil {
		return [43]frontend.Variable{}, err
	}
	buf[14], buf[15] = fr_from_string("9125246457194062079192598275178850075343678690105278369118112655547944406336"), fr_from_string("294075161521838319967190643963225379772318561607769296285010787743709643736")
	buf[16] = fr_mul(api, buf[21], buf[27])
	err = ecc_mul_add(api, buf[:], 12)
	if err != nil {
		return [43]frontend.Variable{}, err
	}
	buf[29] = fr_mul(api, buf[20], buf[23])
	buf[14], buf[15] = fr_from_string("21619461572256759847460179508152708219554585855297084173283796582786124555803"), fr_from_string("4345524860916738024637605707697977254152854672257192099656709386158566955621")
	buf[16] = fr_mul(api,
		buf[21],
		fr_mul(api, buf[29], buf[7]),
	)
	err = ecc_mul_add(api, buf[:], 12)
	if err != nil {
		return [43]frontend.Variable{}, err
	}
	buf[14], buf[15] = fr_from_string("17258678549324502889708499924818360135272319280666991023610380123832805047961"), fr_from_string("5334989116053542497869652553010890811115308152577125353854023583257775982812")
	buf[16] = fr_mul(api, buf[21], buf[29])
	err = ecc_mul_add(api, buf[:], 12)
	if err != nil {
		return [43]frontend.Variable{}, err
	}
	buf[14], buf[15] = fr_from_string("5308159394739710035241344480420553410175387652800783904684585252715061491340"), fr_from_string("3019131547261358901530790449779825851153791728474681515444029058543922522335")
	buf[16] = fr_mul(api,
		buf[21],
		fr_mul(api, buf[20], buf[7]),
	)
	err = ecc_mul_add(api, buf[:], 12)
	if err != nil {
		return [43]frontend.Variable{}, err
	}
	buf[20] = fr_mul(api, buf[27], buf[24])
	buf[14], buf[15] = fr_from_string("1602442613231540506062434465510844080484629772386483161935289973450738328411"), fr_from_string("8632200768118172237953570969696965645934378330803102067059028669153881824687")
	buf[16] = fr_mul(api, buf[21], buf[20])
	err = ecc_mul_add(api, buf[:], 12)
	if err != nil {
		return [43]frontend.Variable{}, err
	}
	buf[14], buf[15] = fr_from_string("14938380413158645463746726818663993049411440720262319458512240364576743949172"), fr_from_string("612698444000497655149316219443956538920213548045757527589465098726453410217")
	buf[16] = fr_mul(api,
		buf[21],
		fr_mul(api, buf[20], buf[7]),
	)
	err = ecc_mul_add(api, buf[:], 12)
	if err != nil {
		return [43]frontend.Variable{}, err
	}
	buf[14], buf[15] = fr_from_string("18180235640340843615912844522870848024440129915340282133294923228193557588624"), fr_from_string("16150223963193906991297402627411591966306440109235686551266596870812093013098")
	buf[16] = fr_mul(api,
		buf[21],
		fr_mul(api, buf[26], buf[7]),
	)
	err = ecc_mul_add(api, buf[:], 12)
	if err != nil {
		return [43]frontend.Variable{}, err
	}
	buf[14], buf[15] = transcript[100], transcript[101]
	buf[16] = fr_neg(api,
		fr_mul(api,
			fr_mul(api,
				buf[17],
				fr_add(api,
					buf[9],
					fr_neg(api, buf[6]),
				),
			),
			buf[22],
		),
	)
	err = ecc_mul_add(api, buf[:], 12)
	if err != nil {
		return [43]frontend.Variable{}, err
	}
	buf[14], buf[15] = transcript[102], transcript[103]
	buf[16] = buf[9]
	err = ecc_mul_add(api, buf[:], 12)
	if err != nil {
		return [43]frontend.Variable{}, err
	}
	buf[17] = fr_mul(api, buf[21], buf[7])
	buf[14], buf[15] = transcript[42], transcript[43]
	buf[16] = fr_mul(api,
		buf[17],
		fr_mul(api, buf[35], buf[35]),
	)
	err = ecc_mul_add(api, buf[:], 12)
	if err != nil {
		return [43]frontend.Variable{}, err
	}

	return buf, nil
}
"#

/-- The beginning of /repo/AggregatorVerifierStep3.go:1-13: imports and signature. -/
def goHead3 : String := r#"package main

import (
	"github.com/consensys/gnark/frontend"
	"math/big"
)

func VerifyProof3(
	api frontend.API,
	transcript []frontend.Variable,
	aux []frontend.Variable,
	buf [43]frontend.Variable,
) ([43]frontend.Variable, error) {
"#

/-- The text of /repo/AggregatorVerifierStep3.go:1-176. -/
def goStep3 : String := r#"package main

import (
	"github.com/consensys/gnark/frontend"
	"math/big"
)

func VerifyProof3(
	api frontend.API,
	transcript []frontend.Variable,
	aux []frontend.Variable,
	buf [43]frontend.Variable,
) ([43]frontend.Variable, error) {
	//frOne, _ := new(big.Int).SetString("1", 10)
	buf[14], buf[15] = transcript[40], transcript[41]
	buf[16] = fr_mul(api, buf[17], buf[35])
	err := ecc_mul_add(api, buf[:], 12)
	if err != nil {
		return [43]frontend.Variable{}, err
	}
	buf[14], buf[15] = transcript[38], transcript[39]
	buf[16] = buf[17]
	err = ecc_mul_add(api, buf[:], 12)
	if err != nil {
		return [43]frontend.Variable{}, err
	}
	buf[14], buf[15] = buf[0], buf[1]
	buf[16] = fr_mul(api,
		buf[21],
		fr_mul(api, buf[30], buf[7]),
	)
	err = ecc_mul_add(api, buf[:], 12)
	if err != nil {
		return [43]frontend.Variable{}, err
	}
	buf[17] = fr_mul(api,
		fr_mul(api, buf[19], buf[8]),
		buf[28],
	)
	buf[14], buf[15] = transcript[16], transcript[17]
	buf[16] = fr_mul(api, buf[17], buf[7])
	err = ecc_mul_add(api, buf[:], 12)
	if err != nil {
		return [43]frontend.Variable{}, err
	}
	buf[20] = fr_mul(api, buf[20], buf[23])
	buf[14], buf[15] = transcript[18], transcript[19]
	buf[16] = fr_mul(api,
		buf[21],
		fr_mul(api, buf[20], buf[7]),
	)
	err = ecc_mul_add(api, buf[:], 12)
	if err != nil {
		return [43]frontend.Variable{}, err
	}
	buf[14], buf[15] = transcript[32], transcript[33]
	buf[16] = fr_mul(api, buf[25], buf[7])
	err = ecc_mul_add(api, buf[:], 12)
	if err != nil {
		return [43]frontend.Variable{}, err
	}
	buf[14], buf[15] = transcript[20], transcript[21]
	buf[16] = buf[17]
	err = ecc_mul_add(api, buf[:], 12)
	if err != nil {
		return [43]frontend.Variable{}, err
	}
	buf[14], buf[15] = transcript[22], transcript[23]
	buf[16] = fr_mul(api, buf[21], buf[20])
	err = ecc_mul_add(api, buf[:], 12)
	if err != nil {
		return [43]frontend.Variable{}, err
	}
	buf[14], buf[15] = transcript[34], transcript[35]
	buf[16] = buf[25]
	err = ecc_mul_add(api, buf[:], 12)
	if err != nil {
		return [43]frontend.Variable{}, err
	}
	constFr, _ := new(big.Int).SetString("14330957265734295635487529150089503047509680887155412481838936779763595454159", 10)
	constFr1, _ := new(big.Int).SetString("11657029790297552620042403612079612021781553164410884915460958808861335447799", 10)
	buf[14], buf[15] = constFr, constFr1
	buf[16] = fr_mul(api, buf[21], buf[26])
	err = ecc_mul_add(api, buf[:], 12)
	if err != nil {
		return [43]frontend.Variable{}, err
	}
	buf[17] = fr_mul(api, buf[24], buf[23])
	constFr, _ = new(big.Int).SetString("3217632689962165131030083420553195932069690674124201615821228288158667916559", 10)
	constFr1, _ = new(big.Int).SetString("11279851209809827628209572028517900058696331891386803672043677236706605258017", 10)
	buf[14], buf[15] = constFr, constFr1
	buf[16] = fr_mul(api,
		buf[21],
		fr_mul(api, buf[17], buf[7]),
	)
	err = ecc_mul_add(api, buf[:], 12)
	if err != nil {
		return [43]frontend.Variable{}, err
	}
	constFr, _ = new(big.Int).SetString("6052548824579324632823008857297151984962554125394528409163563861993455062230", 10)
	constFr1, _ = new(big.Int).SetString("5253299219790956244634070239415866732913146545893144333850618503587190167918", 10)
	buf[14], buf[15] = constFr, constFr1
	buf[16] = fr_mul(api, buf[21], buf[17])
	err = ecc_mul_add(api, buf[:], 12)
	if err != nil {
		return [43]frontend.Variable{}, err
	}
	constFr, _ = new(big.Int).SetString("20134811260136067172423268982757475565512657205230154765724273546621797752349", 10)
	constFr1, _ = new(big.Int).SetString("6892971650116630821526804754060441250258363920342589425839414580605638919318", 10)
	buf[14], buf[15] = constFr, constFr1
	buf[16] = fr_mul(api,
		buf[21],
		fr_mul(api, buf[24], buf[7]),
	)
	err = ecc_mul_add(api, buf[:], 12)
	if err != nil {
		return [43]frontend.Variable{}, err
	}
	constFr, _ = new(big.Int).SetString("17209526517725877136177243553045588666670528061781328851527842192340596792007", 10)
	constFr1, _ = new(big.Int).SetString("673380535462416015709313880421335139519451950072360935904307055208109203957", 10)
	buf[14], buf[15] = constFr, constFr1
	buf[16] = fr_mul(api, buf[21], buf[24])
	err = ecc_mul_add(api, buf[:], 12)
	if err != nil {
		return [43]frontend.Variable{}, err
	}
	constFr, _ = new(big.Int).SetString("9973741392326192617521393709476164203221054644042980686853312098867551316157", 10)
	constFr1, _ = new(big.Int).SetString("9696890272060053851986158851707718469926088811173404342570425124396426957984", 10)
	buf[14], buf[15] = constFr, constFr1
	buf[16] = fr_mul(api, buf[21], buf[31])
	err = ecc_mul_add(api, buf[:], 12)
	if err != nil {
		return [43]frontend.Variable{}, err
	}
	constFr, _ = new(big.Int).SetString("14118917696035322873139367456503207319385222068825598680486765986706935215403", 10)
	constFr1, _ = new(big.Int).SetString("18580702656451937158771044279900207779359395181895031379070145857747412641911", 10)
	buf[14], buf[15] = constFr, constFr1
	buf[16] = fr_mul(api, buf[21], buf[23])
	err = ecc_mul_add(api, buf[:], 12)
	if err != nil {
		return [43]frontend.Variable{}, err
	}
	buf[17] = fr_mul(api, buf[19], buf[19])
	buf[14], buf[15] = transcript[24], transcript[25]
	buf[16] = fr_mul(api, buf[17], buf[23])
	err = ecc_mul_add(api, buf[:], 12)
	if err != nil {
		return [43]frontend.Variable{}, err
	}
	buf[14], buf[15] = transcript[26], transcript[27]
	buf[16] = fr_mul(api, buf[17], buf[7])
	err = ecc_mul_add(api, buf[:], 12)
	if err != nil {
		return [43]frontend.Variable{}, err
	}
	buf[14], buf[15] = transcript[28], transcript[29]
	buf[16] = buf[17]
	err = ecc_mul_add(api, buf[:], 12)
	if err != nil {
		return [43]frontend.Variable{}, err
	}
	buf[14], buf[15] = transcript[30], transcript[31]
	buf[16] = fr_mul(api, buf[25], buf[23])
	err = ecc_mul_add(api, buf[:], 12)
	if err != nil {
		return [43]frontend.Variable{}, err
	}
	buf[14], buf[15] = transcript[36], transcript[37]
	buf[16] = buf[21]
	err = ecc_mul_add(api, buf[:], 12)
	if err != nil {
		return [43]frontend.Variable{}, err
	}

	return buf, nil
}
"#

/-- The text of /repo/main.go:1-248. -/
def goMain : String := r#"// Welcome to the gnark playground!
package main

import (
	"github.com/consensys/gnark-crypto/ecc"
	"github.com/consensys/gnark/backend/plonk"
	"github.com/consensys/gnark/frontend"
	"github.com/consensys/gnark/frontend/cs/scs"
	"math/big"

	//"github.com/consensys/gnark/frontend/cs/r1cs"
	//"github.com/consensys/gnark/std/algebra/emulated/sw_emulated"
	//"github.com/consensys/gnark/std/math/emulated"
	//"github.com/consensys/gnark/std/signature/ecdsa"
	"github.com/consensys/gnark/test/unsafekzg"

	"log"
)

var proofStr = []string{
	"6040391028313978484211918676551733116401234039853332758960850838474140786869",
	"15612760000835235043453110809787611149616276822696058008437284650746546753838",
	"2593983859790167560688455226600824560283977050067854161682760085713688904914",
	"19260161560257482627638391837380316026975390175046913343057587688581596194442",
	"16225573509797931746870336409747879104419627023625227304647178518584829459517",
	"14226531483611469783206972174724101836580032561768345241433994849123679369142",
	"1479214271177237730676454915080871426264897492874111704679509191707554880571",
	"10080782452676502724559382050780651823052013977335966155467052481166781585405",
	"15261498842040232713481830851164493316688408435956532511959020796999664394636",
	"19880446135424881202486106520690630074144659885723987547677131080649232169678",
	"17475196855835811390120889945237472117471693801009310801076642572225905791679",
	"13312647968638447618113252216683132279003980890741234146386070867686738542666",
	"7433766596583137417377617650591474270354273768840675598473004260361687100865",
	"10024293084655592231193779008843893806884912822312719548163134296706573630108",
	"11855617913108077700065997726254386156629985424978042552022939475916902370558",
	"13762608509980560233522858360838811676872071063596567240018879533519538491119",
	"21314571930753728069996259462558349864734427913997343661515590025788261911797",
	"14258668454853727405001310265255908375051460786748532514851863434871414464803",
	"2466367992866699090823658261800208690185607350019421236938622193171265249709",
	"15873776480475612064218066697903625112745597980890616668918730154590376138341",
	"6727127810336921503876031542575911496387840435654688322134538119080888760950",
	"20207121356841680158953838149920762410209955501802626791692173410638199147482",
	"14282944644663879939708451532093828434102233798693214762420232045111017073346",
	"18060064953202862447032910036797192303852612202004665798819733246694751147274",
	"3143814600423895785345350053383304291317659163979504849830991916998452324675",
	"4488183103824059506598443030054573799659183120715016976311770747614571311922",
	"3886049620103466460043302423909677619778509048074037608990490829213583626444",
	"4201470497418089075450393078908035142958081095503247831102000525962868882529",
	"8629136992814481483283256922002779510237656603329113874742268259848297042238",
	"11644296830886650446053727864242866709485443712324193094621340997097580237882",
	"7389713057347271122372672649987885986856069082538136203897408292638957877444",
	"20645668004014221570128326861258485659875150859869415962659666297494150381699",
	"4558833108881744286133554461794452593266829121926124456514591894425651254506",
	"4433284357007348169917002637533593160003957918643634713351513165123485048654",
	"7275978011901972838302777028002136222015406902103007200178179371461876683309",
	"19659686260996023964030185993960460859762993501390533249903905675203657368463",
	"9810863361166331135089174854725998465094008475937600460204164784914582018302",
	"15039139532657606727096761676273474359922799104189928853184431864027586333848",
	"6697365270651584230146889620765325648104115402434888301556246691985656425408",
	"20578156100843321307368431208436496246435465822615780919879575996533651043265",
	"14593744636334602108539828109586108350182388406166734966637069413924872241412",
	"9764577158641633263914405347191677483681555504721305417999954341416197414772",
	"3326237301608665392144310758737293531903420545082662858833297442606607805709",
	"15802127124053763012690907740138641386331593207902778341576950349184925351364",
	"11627988358264772416821006090936976549744237070403434227740229808755463064647",
	"9877133485175927933938612376247688693480761626300037609579938618435268747874",
	"11973852370000111761435842389116001704132618146935887206893640607297316327630",
	"1714135521968216370636237704591970353774778248164788355996163982260912163570",
	"20385327976907123143863204131801795554068349528559224453813706897259217283829",
	"14221558282713042911518957790565634467268500706118397666551751031198748504485",
	"20607675607489231513511710769020688523666992557004498233581832224653930059869",
	"1264797420416028187718480344467255113977168173158136006391320574930364171371",
	"1615610822570478684476777596357258194416882639985621050258136565066110027532",
	"6397122757826984815150818265392973022816896330335595947036996160634306843669",
	"7482181824312515337904597338970052264540703032321275403741606042146737586634",
	"8899244347121972539261691670915170548087019994583018609369054944934051712500",
	"17142146333671213192286276966375737599618565827140024268973303397750321837586",
	"7824972485880665317101827774042219882470836800272553463610802341992263948395",
	"7715311952938002057892293990494696898751544324897922077177450407834099274636",
	"3926394583176793663922881675102618497128700177503141618248563644798276319104",
	"15969444527981988547623243841629540941292644600110613817171574158927247545195",
	"14675566901794912902596292846774744292715837192528823930956470568724584254725",
	"6198915652184885713851210015976017066660496687381332452553421895135256771338",
	"606792630976896049066653975782869121063090601511028253486141233454457180488",
	"1690321503337909329600042798216859950563789331769470564985965167947814212800",
	"17708681560274293828407089124553132946030375363089102253733014323153053825914",
	"21830302564078281187235914417070178478137874104420034246701120394563015130567",
	"20336739493709499956213815945717150467046684331663982709873830685180281363418",
	"10047878899691576413953564538638488142981110873489999846130246063023482349120",
	"7913473937720930046147964640842622009755527373042814855385459052917709486658",
	"3147087827201607118632553829784006395518040212175048762958915354827474129499",
	"1356300434246325142143424223462237061250741875786315450935516723323686324978",
	"8565346228007623171493823020106758460629908019252235164612722643595948448603",
	"16615814945312513942012476518909118971055048405106952904957931580044837592203",
	"10609123029491894511998297971183398370912262114471459144938660741389249945154",
	"13790089485243745643511344816397792429096291012376908724735656166404265517504",
	"2342744421778742073960689995632871172212962611635802381147909080188458834096",
	"3884653336689914820564705636170567481273474959674580945030567209891221705545",
	"95616299319603112200398386313336911109313832817595315603575224531234888210",
	"20194724493197697283143937022980457413292722256350452033147445566054896783163",
	"18501177650790470633409381058647356646688384941473091240984531975459023383240",
	"15340702514497912821861863443385702827437687216253724286015975052596925808307",
	"13347844363137201966825660337621979252857914912748581900039139508996869216314",
	"586781691473263200727162341384823623060266480775553796324320014569046878012",
	"16859078550074630705933248290764089985768002419804900798689490470858690985251",
	"15638765325627570233734307006842172292168851708560494817656107908488491324915",
	"15209653781974740076362764816933244741937642276791218708070587388849761738388",
	"20217823041301236749036681243021341169357095676096384183533047217315311864426",
	"13820917595770977664599477864576563114209717333748427347360723626312167179360",
	"18552350691191835170650249284586249779754144647212402550883410976636446254544",
	"20804524742095914786759560268508799929803089715132884188095367406202405435136",
	"10253341666461839857026709810776041012852961627362888464029943696714224274237",
	"13131454594371540869288648571489039514979311348852510803244955480667364697730",
	"13260766900087776986591861526301153096106873989704674369161996773139822874475",
	"21883473671391627556838051382826690148113526743642816997929727267371553198886",
	"1890976346321102405541166731746172271506421091909039451212991781577631014865",
	"2671778843608790255186606579761370487916054721454134720439851783686192402643",
	"5729614234946405024473791418752103912198434522338033719578111093686749665029",
	"10683279605881053376759869940756383839237075250675429864563664080871455374544",
	"7547611984388921087570879758552377295646968808329672180541831410920545518918",
	"18311365213787647478549906226462500770751194154202138786058552438717223063628",
	"7053082475024936089491731097418889269619379854714000028522816832189714146874",
	"2920616387084030925907755037226454382846345550621956833249622258647667607078",
	"16502678157049327323910877548707266122319935523346850792311342099791838736912",
}

var auxStr = []string{
	"14682075548635262302074385051110702234086274396931195933546742286128764358125",
	"5970944479539763667607302383227109670115664003990899249555645330207628539815",
	"7206167323204012920172020694146572854462090003484838410151461900447044137492",
	"18300725921111785381142905892564341189078252048168893413679182768065165458873",
	"15917298392299511554639103362030165418432700396425135094142558856368179955802",
	"3587516950727489841103499852692933899470112352247140930019021418510643036744",
	"16151655324356327614760014858525704209887167769008678047573542023792762405117",
	"5736587547482947607486390886731570878661196631407356296124662162783046090500",
	"1419367324747928750740274367894771235288461851295498307475706487306261727016",
	"5707748190585141439752460049259769355677576232325499685890888944905271149423",
	"11689593922861133887200066459481418654607356864746905626000232770614216718433",
	"19387783161554357341921940911084468327547176706575548905518836360106050064187",
	"2476626289238578204609570993403947988008457085418248697797844941324301300009",
	"18722683493784403176336951594313758589329400787912550261272888155103625800384",
	"6496776828228921447657185819640921303649571797651136931499664504670514728878",
	"7262967178269634502214584662631180779259460182124420719996114193736337341167",
	"18236718830889372358620508748939082284258422158604894293924155411313894246989",
	"8022579757513435116576328365390377243723859585422666855272672472206173978140",
	"18424665392613454736987314109345836106668473963999153826397914692375159257895",
	"13865663114325840105670077379866897844824504814993367488425531714369634517477",
	"3463577479225820485259091635911438981879890436416880517300289494200649237722",
}

func main() {
	var aggCircuit = AggregatorCircuit{
		Proof:      make([]frontend.Variable, len(proofStr)),
		VerifyInst: make([]frontend.Variable, 1),
		Aux:        make([]frontend.Variable, len(auxStr)),
		TargetInst: make([]frontend.Variable, 4),
	}

	{
		for i := 0; i < len(proofStr); i++ {
			aggCircuit.Proof[i] = big.NewInt(0)
		}
		aggCircuit.VerifyInst[0] = big.NewInt(0)
		for i := 0; i < len(auxStr); i++ {
			aggCircuit.Aux[i] = big.NewInt(0)
		}
		aggCircuit.TargetInst[0] = big.NewInt(0)
		aggCircuit.TargetInst[1] = big.NewInt(0)
		aggCircuit.TargetInst[2] = big.NewInt(0)
		aggCircuit.TargetInst[3] = big.NewInt(0)
	}

	var witnessCircuit = AggregatorCircuit{
		Proof:      make([]frontend.Variable, len(proofStr)),
		VerifyInst: make([]frontend.Variable, 1),
		Aux:        make([]frontend.Variable, len(auxStr)),
		TargetInst: make([]frontend.Variable, 4),
	}

	r1cs, err := frontend.Compile(ecc.BN254.ScalarField(), scs.NewBuilder, &aggCircuit)
	if err != nil {
		panic(err)
	}

	log.Println("start setup")

	srs, srsLagrange, err := unsafekzg.NewSRS(r1cs)
	if err != nil {
		panic(err)
	}

	pk, vk, err := plonk.Setup(r1cs, srs, srsLagrange)
	if err != nil {
		panic(err)
	}

	log.Println("end setup")

	{
		for i := 0; i < len(proofStr); i++ {
			proof, _ := big.NewInt(0).SetString(proofStr[i], 10)
			witnessCircuit.Proof[i] = proof
		}
		verifyIns, _ := big.NewInt(0).SetString("10573525131658455000365299935369648652552518565632155338390913030155084554858", 10)
		witnessCircuit.VerifyInst[0] = verifyIns
		for i := 0; i < len(auxStr); i++ {
			aux, _ := big.NewInt(0).SetString(auxStr[i], 10)
			witnessCircuit.Aux[i] = aux
		}
		target0, _ := big.NewInt(0).SetString("7059793422771910484", 10)
		target1, _ := big.NewInt(0).SetString("2556686405730241944", 10)
		target2, _ := big.NewInt(0).SetString("2133554817341762742", 10)
		target3, _ := big.NewInt(0).SetString("8974371243071329347", 10)
		witnessCircuit.TargetInst[0] = target0
		witnessCircuit.TargetInst[1] = target1
		witnessCircuit.TargetInst[2] = target2
		witnessCircuit.TargetInst[3] = target3
	}

	witness, err := frontend.NewWitness(&witnessCircuit, ecc.BN254.ScalarField())
	if err != nil {
		panic(err)
	}

	log.Println("start proof")

	// 2. Proof creation
	proof, err := plonk.Prove(r1cs, pk, witness)
	if err != nil {
		panic(err)
	}

	log.Println("end proof")

	log.Println("start verify")

	// 3. Proof verification
	publicWitness, err := witness.Public()
	if err != nil {
		panic(err)
	}
	err = plonk.Verify(proof, vk, publicWitness)
	if err != nil {
		panic(err)
	}

	log.Println("end verify")
}
"#

/-- The text of /repo/aggregator_lib_circuit.go:1-618. -/
def goLib : String := r#"package main

import (
	"crypto/sha256"
	"encoding/hex"
	"errors"
	"fmt"
	"math/big"
	"regexp"
	"strings"

	"github.com/consensys/gnark-crypto/ecc/bn254"
	"github.com/consensys/gnark-crypto/ecc/bn254/fp"
	"github.com/consensys/gnark/constraint/solver"
	"github.com/consensys/gnark/frontend"
	"github.com/consensys/gnark/std/hash/sha2"
	"github.com/consensys/gnark/std/hash/sha3"
	"github.com/consensys/gnark/std/math/emulated"
	"github.com/consensys/gnark/std/math/uints"
	"github.com/ethereum/go-ethereum/crypto/bn256"
)

var (
	FpModulus          = "21888242871839275222246405745257275088696311157297823662689037894645226208583"
	FrModulus          = "21888242871839275222246405745257275088548364400416034343698204186575808495617"
	MODULUS   *big.Int = emulated.BN254Fr{}.Modulus()
)

func init() {
	solver.RegisterHint(MsmHint)
	solver.RegisterHint(AddHint)
	solver.RegisterHint(Keccak256Hint)
}

// BN256MsmCircuit is the circuit that performs a bn256 pairing operation
type BN256MsmCircuit struct {
	// Inputs
	G1Point *bn254.G1Affine
	Scalar  *big.Int
	Res     *bn254.G1Affine
}

func (c *BN256MsmCircuit) Define(api frontend.API) error {
	return VerifyBN256Msm(
		api,
		c.G1Point,
		c.Scalar,
		c.Res,
	)
}

func VerifyBN256Msm(
	api frontend.API,
	g1Point *bn254.G1Affine,
	scalar *big.Int,
	res *bn254.G1Affine,
) error {
	g1Point = g1Point.ScalarMultiplication(g1Point, scalar)
	//log.Println("VerifyBN256Msm", g1Point.String(), res.String())
	api.AssertIsEqual(g1Point.X, res.X)
	api.AssertIsEqual(g1Point.Y, res.Y)
	return nil
}

// BN256AddCircuit is the circuit that performs a bn256 pairing operation
type BN256AddCircuit struct {
	// Inputs
	G10Point *bn254.G1Affine
	G11Point *bn254.G1Affine
	Res      *bn254.G1Affine
}

func (c *BN256AddCircuit) Define(api frontend.API) error {
	return VerifyBN256Add(
		api,
		c.G10Point,
		c.G11Point,
		c.Res,
	)
}

func VerifyBN256Add(
	api frontend.API,
	g10Point *bn254.G1Affine,
	g11Point *bn254.G1Affine,
	res *bn254.G1Affine,
) error {
	sum := g10Point.Add(g10Point, g11Point)
	api.AssertIsEqual(sum.X, res.X)
	api.AssertIsEqual(sum.Y, res.Y)
	return nil
}

func CalcVerifyCircuitLagrange(api frontend.API, buf []frontend.Variable) error {
	x, _ := new(big.Int).SetString("13534086339230182803823178260078315691269243572458753455438283544709107378988", 10)
	y, _ := new(big.Int).SetString("9053077977614827188269653632534212501565186534180282672519599630892718179094", 10)

	res, err := CalcVerifyBN256Msm(api, x, y, buf[2])
	buf[0] = res[0]
	buf[1] = res[1]
	return err
}

func MsmHint(_ *big.Int, inputs []*big.Int, results []*big.Int) error {
	if len(inputs) != 3 {
		panic("MulAddHint expects 3 input operands")
	}
	var blob []byte
	bufByte0 := inputs[0].FillBytes(make([]byte, 32))
	blob = append(blob, bufByte0[:]...)
	bufByte1 := inputs[1].FillBytes(make([]byte, 32))
	blob = append(blob, bufByte1[:]...)
	p := new(bn256.G1)
	_, err := p.Unmarshal(blob)
	if err != nil {
		return err
	}
	res := new(bn256.G1)
	res.ScalarMult(p, inputs[2])

	xStr, yStr, _ := extractAndConvert(res.String())
	results[0], _ = new(big.Int).SetString(xStr, 10)
	results[1], _ = new(big.Int).SetString(yStr, 10)
	return nil
}

func CalcVerifyBN256Msm1(api frontend.API, x, y, k frontend.Variable) ([2]frontend.Variable, error) {
	result, err := api.Compiler().NewHint(MsmHint, 2, x, y, k)
	if err != nil {
		panic(err)
	}

	var g10 = bn254.G1Affine{}
	_, err = g10.X.SetInterface(x)
	if err != nil {
		panic(err)
	}
	_, err = g10.Y.SetInterface(y)
	if err != nil {
		panic(err)
	}
	if !g10.IsOnCurve() {
		return [2]frontend.Variable{}, errors.New("bn256.G1Affine is not on curve")
	}

	var resCircuit = bn254.G1Affine{}
	_, err = resCircuit.X.SetInterface(result[0])
	if err != nil {
		panic(err)
	}
	_, err = resCircuit.Y.SetInterface(result[1])
	if err != nil {
		panic(err)
	}
	//return [2]frontend.Variable{result[0], result[1]}, VerifyBN256Msm(api, &g10, k.(*big.Int), &resCircuit)
	return [2]frontend.Variable{resCircuit.X.BigInt(new(big.Int)), resCircuit.Y.BigInt(new(big.Int))}, VerifyBN256Msm(api, &g10, k.(*big.Int), &resCircuit)
}

func CalcVerifyBN256Msm(api frontend.API, x, y, k frontend.Variable) ([2]frontend.Variable, error) {
	result, err := api.Compiler().NewHint(MsmHint, 2, x, y, k)
	if err != nil {
		panic(err)
	}
	//var resCircuit = bn254.G1Affine{}
	//_, err = resCircuit.X.SetInterface(result[0])
	//if err != nil {
	//	panic(err)
	//}
	//_, err = resCircuit.Y.SetInterface(result[1])
	//if err != nil {
	//	panic(err)
	//}
	//return [2]frontend.Variable{result[0], result[1]}, VerifyBN256Msm(api, &g10, k.(*big.Int), &resCircuit)
	expectedX, expectedY := mod(api, result[0]), mod(api, result[1])
	err = VerifyBN254ScalarMul(api, [2]frontend.Variable{x, y}, k, [2]frontend.Variable{expectedX, expectedY})
	return [2]frontend.Variable{expectedX, expectedY}, err
}

func AddHint(_ *big.Int, inputs []*big.Int, results []*big.Int) error {
	if len(inputs) != 4 {
		panic("MulAddHint expects 3 input operands")
	}

	var blob1 []byte
	bufByte0 := inputs[0].FillBytes(make([]byte, 32))
	blob1 = append(blob1, bufByte0[:]...)
	bufByte1 := inputs[1].FillBytes(make([]byte, 32))
	blob1 = append(blob1, bufByte1[:]...)
	p1 := new(bn256.G1)
	_, err := p1.Unmarshal(blob1)
	if err != nil {
		return err
	}

	var blob2 []byte
	bufByte2 := inputs[2].FillBytes(make([]byte, 32))
	blob2 = append(blob2, bufByte2[:]...)
	bufByte3 := inputs[3].FillBytes(make([]byte, 32))
	blob2 = append(blob2, bufByte3[:]...)
	p2 := new(bn256.G1)
	_, err = p2.Unmarshal(blob2)
	if err != nil {
		return err
	}

	res := new(bn256.G1)
	res = res.Add(p1, p2)

	xStr, yStr, _ := extractAndConvert(res.String())
	results[0], _ = new(big.Int).SetString(xStr, 10)
	results[1], _ = new(big.Int).SetString(yStr, 10)
	return nil
}

func CalcVerifyBN256Add1(api frontend.API, x1, y1, x2, y2 frontend.Variable) ([2]frontend.Variable, error) {
	result, err := api.Compiler().NewHint(AddHint, 2, x1, y1, x2, y2)
	// TODO: sanity check

	// circuit
	var g10 = bn254.G1Affine{}
	_, err = g10.X.SetInterface(x1)
	if err != nil {
		panic(err)
	}
	_, err = g10.Y.SetInterface(y1)
	if err != nil {
		panic(err)
	}
	if !g10.IsOnCurve() {
		return [2]frontend.Variable{}, errors.New("bn256.G1Affine is not on curve")
	}

	var g11 = bn254.G1Affine{}
	_, err = g11.X.SetInterface(x2)
	if err != nil {
		panic(err)
	}
	_, err = g11.Y.SetInterface(y2)
	if err != nil {
		panic(err)
	}
	if !g11.IsOnCurve() {
		return [2]frontend.Variable{}, errors.New("bn256.G1Affine is not on curve")
	}

	var resCircuit = bn254.G1Affine{}
	_, err = resCircuit.X.SetInterface(result[0])
	if err != nil {
		panic(err)
	}
	_, err = resCircuit.Y.SetInterface(result[1])
	if err != nil {
		panic(err)
	}

	return [2]frontend.Variable{resCircuit.X.BigInt(new(big.Int)), resCircuit.Y.BigInt(new(big.Int))}, VerifyBN256Add(api, &g10, &g11, &resCircuit)
}

func CalcVerifyBN256Add(api frontend.API, x1, y1, x2, y2 frontend.Variable) ([2]frontend.Variable, error) {
	result, err := api.Compiler().NewHint(AddHint, 2, x1, y1, x2, y2)
	expectedX, expectedY := mod(api, result[0]), mod(api, result[1])
	err = VerifyBN254Add(api, [2]frontend.Variable{x1, y1}, [2]frontend.Variable{x2, y2}, [2]frontend.Variable{expectedX, expectedY})
	return [2]frontend.Variable{expectedX, expectedY}, err
}

func extractAndConvert(input string) (string, string, error) {
	re := regexp.MustCompile(`bn256\.G1\((\w+),\s(\w+)\)`)

	matches := re.FindStringSubmatch(input)
	if len(matches) != 3 {
		return "", "", fmt.Errorf("invalid input format")
	}

	xStr := matches[1]
	yStr := matches[2]

	x10Str, err := hexToDecimalString(xStr)
	if err != nil {
		return "", "", fmt.Errorf("failed to decode x: %v", err)
	}

	y10Str, err := hexToDecimalString(yStr)
	if err != nil {
		return "", "", fmt.Errorf("failed to decode y: %v", err)
	}

	return x10Str, y10Str, nil
}

// Converts hex string to decimal string
func hexToDecimalString(hexStr string) (string, error) {
	// Strip leading "0x" if it exists
	hexStr = strings.TrimPrefix(hexStr, "0x")

	// Convert hex to bytes
	bytes, err := hex.DecodeString(hexStr)
	if err != nil {
		return "", err
	}

	// Convert bytes to big.Int
	bigInt := new(big.Int).SetBytes(bytes)

	// Convert big.Int to decimal string
	return bigInt.String(), nil
}

type Keccak256Circuit struct {
	InputValue []uints.U8
	HashValue  []uints.U8
}

func (circuit Keccak256Circuit) Define(api frontend.API) error {
	return VerifyKeccak256(api, circuit.InputValue, circuit.HashValue)
}

func VerifyKeccak256(
	api frontend.API,
	inputValue []uints.U8,
	hashValue []uints.U8,
) error {
	h, err := sha3.NewLegacyKeccak256(api)
	if err != nil {
		return err
	}
	uapi, err := uints.New[uints.U64](api)
	if err != nil {
		return err
	}

	h.Write(inputValue)
	res := h.Sum()

	for i := range res {
		uapi.ByteAssertEq(hashValue[i], res[i])
	}
	return nil
}

type Sha256Circuit struct {
	InputValue []uints.U8
	HashValue  []uints.U8
}

func (circuit Sha256Circuit) Define(api frontend.API) error {
	return VerifySha256(api, circuit.InputValue, circuit.HashValue)
}

func VerifySha256(
	api frontend.API,
	inputValue []uints.U8,
	hashValue []uints.U8,
) error {
	h, err := sha2.New(api)
	if err != nil {
		return err
	}
	uapi, err := uints.New[uints.U64](api)
	if err != nil {
		return err
	}

	h.Write(inputValue)
	res := h.Sum()

	for i := range res {
		uapi.ByteAssertEq(hashValue[i], res[i])
	}
	return nil
}

type CheckOnCurveCircuit struct {
	X frontend.Variable
	Y frontend.Variable
}

func (circuit CheckOnCurveCircuit) Define(api frontend.API) error {
	return VerifyCheckOnCurve(api, circuit.X, circuit.Y)
}

func VerifyCheckOnCurve(
	api frontend.API,
	x frontend.Variable,
	y frontend.Variable,
) error {
	var g1 = bn254.G1Affine{}
	//var xFr, yFr fr.Element
	xFr, _ := new(fp.Element).SetInterface(x)
	yFr, _ := new(fp.Element).SetInterface(y)
	g1.X.Set(xFr)
	g1.Y.Set(yFr)

	// Enforce y² = x³ + 3
	if !g1.IsOnCurve() {
		return errors.New("bn256.G1Affine is not on curve")
	}
	return nil
}

type CheckOnCurveCircuitVar struct {
	X frontend.Variable
	Y frontend.Variable
}

func (circuit CheckOnCurveCircuitVar) Define(api frontend.API) error {
	return VerifyCheckOnCurveVar(api, circuit.X, circuit.Y)
}

func VerifyCheckOnCurveVar(
	api frontend.API,
	x frontend.Variable,
	y frontend.Variable,
) error {
	var g1 = bn254.G1Affine{}
	g1.X.SetInterface(x)
	g1.Y.SetInterface(y)

	// Enforce y² = x³ + 3
	if !g1.IsOnCurve() {
		return errors.New("bn256.G1Affine is not on curve")
	}
	return nil
}

func SqueezeChallenge(
	api frontend.API,
	absorbing []frontend.Variable,
	length int,
) (frontend.Variable, error) {
	// TODO: uint256 len = length * 32 + 1;
	qMod, _ := new(big.Int).SetString(FrModulus, 10)
	absorbing[length] = new(big.Int).SetUint64(0)

	var inputBytes []byte
	for i := 0; i < length; i++ {
		//log.Println("absorbing", absorbing[i].(*big.Int).String())
		res := absorbing[i].(*big.Int).FillBytes(make([]byte, 32))
		inputBytes = append(inputBytes, res[:]...)
	}
	inputBytes = append(inputBytes, 0x0)
	ethHashVal := sha256.Sum256(inputBytes)

	inputCircuit := uints.NewU8Array(inputBytes)
	hashValCircuit := uints.NewU8Array(ethHashVal[:])
	err := VerifySha256(api, inputCircuit, hashValCircuit)
	if err != nil {
		return nil, err
	}
	ethHashBig := new(big.Int).SetBytes(ethHashVal[:])
	absorbing[0] = ethHashBig
	//log.Println("ethHashBig", ethHashBig.String())
	return new(big.Int).Mod(ethHashBig, qMod), nil
}

func GetChallengesShPlonkCircuit(
	api frontend.API,
	buf []frontend.Variable, // buf[0..1] is instance_commitment
	transcript []frontend.Variable,
) error {
	var absorbing = make([]frontend.Variable, 112)
	absorb0, _ := new(big.Int).SetString("8025805240938309707562879759498205008153592202559235423490485577859843831056", 10)
	absorbing[0] = absorb0

	absorbing[1] = buf[0]
	absorbing[2] = buf[1]

	pos := 3
	transcriptPos := 0
	for i := 0; i < 8; i++ {
		err := VerifyCheckOnCurve(api, transcript[transcriptPos], transcript[transcriptPos+1])
		if err != nil {
			return err
		}
		absorbing[pos] = transcript[transcriptPos]
		pos++
		transcriptPos++
		absorbing[pos] = transcript[transcriptPos]
		pos++
		transcriptPos++
	}

	// theta
	var err error = nil
	buf[2], err = SqueezeChallenge(api, absorbing, pos)
	if err != nil {
		return err
	}

	pos = 1
	for i := 0; i < 4; i++ {
		err := VerifyCheckOnCurve(api, transcript[transcriptPos], transcript[transcriptPos+1])
		if err != nil {
			return err
		}
		absorbing[pos] = transcript[transcriptPos]
		pos++
		transcriptPos++
		absorbing[pos] = transcript[transcriptPos]
		pos++
		transcriptPos++
	}

	// beta
	buf[3], err = SqueezeChallenge(api, absorbing, pos)
	if err != nil {
		return err
	}

	pos = 1
	// gamma
	buf[4], err = SqueezeChallenge(api, absorbing, pos)
	if err != nil {
		return err
	}

	pos = 1
	for i := 0; i < 7; i++ {
		err := VerifyCheckOnCurve(api, transcript[transcriptPos], transcript[transcriptPos+1])
		if err != nil {
			return err
		}
		absorbing[pos] = transcript[transcriptPos]
		pos++
		transcriptPos++
		absorbing[pos] = transcript[transcriptPos]
		pos++
		transcriptPos++
	}
	// y
	buf[5], err = SqueezeChallenge(api, absorbing, pos)
	if err != nil {
		return err
	}

	pos = 1
	for i := 0; i < 3; i++ {
		err := VerifyCheckOnCurve(api, transcript[transcriptPos], transcript[transcriptPos+1])
		if err != nil {
			return err
		}
		absorbing[pos] = transcript[transcriptPos]
		pos++
		transcriptPos++
		absorbing[pos] = transcript[transcriptPos]
		pos++
		transcriptPos++
	}
	//x
	buf[6], err = SqueezeChallenge(api, absorbing, pos)
	if err != nil {
		return err
	}

	pos = 1
	for i := 0; i < 56; i++ {
		absorbing[pos] = transcript[transcriptPos]
		pos++
		transcriptPos++
	}
	//y
	buf[7], err = SqueezeChallenge(api, absorbing, pos)
	if err != nil {
		return err
	}

	pos = 1
	//v
	buf[8], err = SqueezeChallenge(api, absorbing, pos)
	if err != nil {
		return err
	}

	err = VerifyCheckOnCurve(api, transcript[transcriptPos], transcript[transcriptPos+1])
	if err != nil {
		return err
	}
	absorbing[pos] = transcript[transcriptPos]
	pos++
	transcriptPos++
	absorbing[pos] = transcript[transcriptPos]
	pos++
	transcriptPos++

	//u
	buf[9], err = SqueezeChallenge(api, absorbing, pos)
	if err != nil {
		return err
	}

	err = VerifyCheckOnCurve(api, transcript[transcriptPos], transcript[transcriptPos+1])
	if err != nil {
		return err
	}

	return nil
}

func VerifyNotZero(api frontend.API, x frontend.Variable) error {
	//notZero, err := api.Compiler().NewHint(isNonZero, 1, x)
	//if err != nil {
	//	return err
	//}
	api.AssertIsLessOrEqual(1, x)
	//api.AssertIsEqual(api.Mul(x, notZero[0]), x)
	return nil
}

type RangeCheckCircuit struct {
	X   frontend.Variable `gnark:",public"` // 待检查的变量
	Min frontend.Variable
	Max frontend.Variable
}

func VerifyRangeCheck(api frontend.API, x frontend.Variable, Min frontend.Variable, Max frontend.Variable) error {
	api.AssertIsLessOrEqual(Min, x)
	api.AssertIsLessOrEqual(x, Max)
	return nil
}
"#

/-- The text of /repo/pairing_circuit.go:1-113. -/
def goPairing : String := r#"package main

import (
	"fmt"
	"log"

	"github.com/consensys/gnark-crypto/ecc/bn254"
	"github.com/consensys/gnark/frontend"
	"github.com/consensys/gnark/std/algebra/emulated/sw_bn254"
)

// BN256PairingCircuit is the circuit that performs a bn256 pairing operation
type BN256PairingCircuit struct {
	// Inputs
	G1Points [2]*sw_bn254.G1Affine
	G2Points [2]*sw_bn254.G2Affine
}

// Define the circuit
func (c *BN256PairingCircuit) Define(api frontend.API) error {
	return VerifyBN256Pairing(
		api,
		c.G1Points[:],
		c.G2Points[:],
	)
}

func VerifyBN256Pairing(
	api frontend.API,
	g1Points []*sw_bn254.G1Affine,
	g2Points []*sw_bn254.G2Affine,
) error {
	pairing, err := sw_bn254.NewPairing(api)
	if err != nil {
		return fmt.Errorf("NewPairing: %w", err)
	}
	// Initialize pairing engine
	err = pairing.PairingCheck(
		g1Points,
		g2Points,
	)
	if err != nil {
		return fmt.Errorf("pair: %w", err)
	}
	return nil
}

func (c *BN256PairingCircuit) FillVerifyCircuitsG1(x1, y1, x2, y2 frontend.Variable) {
	var g10 = bn254.G1Affine{}
	_, err1 := g10.X.SetInterface(x1)
	_, err2 := g10.Y.SetInterface(y1)
	if err1 != nil || err2 != nil || !g10.IsOnCurve() {
		panic(fmt.Sprintf("err1 = %v, err2 = %v", err1, err2))
	}

	var g11 = bn254.G1Affine{}
	_, err1 = g11.X.SetInterface(x2)
	_, err2 = g11.Y.SetInterface(y2)
	if err1 != nil || err2 != nil || !g11.IsOnCurve() {
		panic(fmt.Sprintf("err1 = %v, err2 = %v", err1, err2))
	}

	swG10 := sw_bn254.NewG1Affine(g10)
	swG11 := sw_bn254.NewG1Affine(g11)
	c.G1Points = [2]*sw_bn254.G1Affine{&swG10, &swG11}

}

func (c *BN256PairingCircuit) FillVerifyCircuitsG2() {
	g20, g21 := GetVerifyCircuitsG2Jac()

	var g20GenAff, g21GenAff bn254.G2Affine
	g20GenAff.FromJacobian(&g20)
	g21GenAff.FromJacobian(&g21)
	log.Println("GenAff IsOnCurve", g20GenAff.IsOnCurve(), g21GenAff.IsOnCurve())

	swG20 := sw_bn254.NewG2Affine(g20GenAff)
	swG21 := sw_bn254.NewG2Affine(g21GenAff)

	c.G2Points = [2]*sw_bn254.G2Affine{&swG20, &swG21}
}

func GetVerifyCircuitsG2Jac() (bn254.G2Jac, bn254.G2Jac) {
	var g20 = bn254.G2Jac{}
	g20.X.SetString(
		"13560776910958896778309428450808722712362583089620853136731412215646945297830",
		"17006984783035916014836003241042945838018391379603479329912940809520477208052",
	)
	g20.Y.SetString(
		"18091431719069275340788954644764755415339503689597559484185985670418402491565",
		"12900589361605111856143562381318004229723309245412571888359653960504992734777",
	)
	g20.Z.SetString("1", "0")
	if !g20.IsOnCurve() {
		panic("is not on Curve")
	}

	var g21 = bn254.G2Jac{}
	g21.X.SetString(
		"10857046999023057135944570762232829481370756359578518086990519993285655852781",
		"11559732032986387107991004021392285783925812861821192530917403151452391805634",
	)
	g21.Y.SetString(
		"13392588948715843804641432497768002650278120570034223513918757245338268106653",
		"17805874995975841540914202342111839520379459829704422454583296818431106115052",
	)
	g21.Z.SetString("1", "0")
	if !g21.IsOnCurve() {
		panic("is not on Curve")
	}

	return g20, g21
}
"#

/-- The text of /repo/kyc.go:1-67. -/
def goKyc : String := r#"package main

import (
	"math/big"

	"github.com/consensys/gnark/frontend"
	"github.com/consensys/gnark/std/algebra/emulated/sw_emulated"
	"github.com/consensys/gnark/std/math/emulated"
	"github.com/consensys/gnark/std/signature/ecdsa"
)

type Conditions struct {
	Age     [2]frontend.Variable
	Country []frontend.Variable
	Level   []frontend.Variable
	Time    []frontend.Variable
}

type KycType struct {
	Age     frontend.Variable
	Country frontend.Variable
	Level   frontend.Variable
	Time    frontend.Variable
}

type Circuit struct {
	Signature     ecdsa.Signature[emulated.Secp256k1Fr]
	KycHash       emulated.Element[emulated.Secp256k1Fr]
	Kyc           KycType
	ConditionHash Conditions `gnark:",public"`
}

// Define declares the circuit logic. The compiler then produces a list of constraints
// which must be satisfied (valid witness) in order to create a valid zk-SNARK
// This circuit verifies an EdDSA signature.
func (circuit *Circuit) Define(api frontend.API) error {
	x, ok := big.NewInt(0).SetString("85997066971194522473057012223499312995837068047270353161199320975157154592866", 10)
	if !ok {
		panic("invalid value")
	}

	y, ok := big.NewInt(0).SetString("40070151623224504185408656535330873345235311800089295101492157067180406840001", 10)
	if !ok {
		panic("invalid value")
	}

	pubKey := ecdsa.PublicKey[emulated.Secp256k1Fp, emulated.Secp256k1Fr]{
		X: emulated.ValueOf[emulated.Secp256k1Fp](x),
		Y: emulated.ValueOf[emulated.Secp256k1Fp](y),
	}

	pubKey.Verify(api, sw_emulated.GetCurveParams[emulated.Secp256k1Fp](), &circuit.KycHash, &circuit.Signature)

	err := VerifyRangeCheck(api, circuit.Kyc.Age, circuit.ConditionHash.Age[0], circuit.ConditionHash.Age[1])
	if err != nil {
		return err
	}

	isInList := frontend.Variable(0)
	for _, country := range circuit.ConditionHash.Country {
		match := api.IsZero(api.Sub(circuit.Kyc.Country, country))
		isInList = api.Or(isInList, match)
	}
	api.AssertIsEqual(isInList, frontend.Variable(1))

	return nil
}
"#

/-- The text of /repo/fr.go:1-104. -/
def goFr : String := r#"package main

import (
	"math/big"

	"github.com/consensys/gnark/frontend"
)

func ecc_mul(api frontend.API, input []frontend.Variable, offset int) error {
	//if input[offset+2].(*big.Int) == fr_from_string("1") {
	//	return nil
	//}
	//
	//one := fr_from_string("1")
	//api.IsZero(api.Sub(input[offset+2], one))
	////cmp := api.Cmp(input[offset+2], one)
	//if input[offset+2].(*big.Int).Cmp(one.(*big.Int)) == 0 {
	//	return nil
	//}

	res, err := CalcVerifyBN256Msm(api, input[offset], input[offset+1], input[offset+2])
	if err != nil {
		return err
	}
	input[offset] = res[0]
	input[offset+1] = res[1]
	return nil
}

func ecc_mul_add(api frontend.API, buf []frontend.Variable, offset int) error {
	err := ecc_mul(api, buf, offset+2)
	if err != nil {
		return err
	}

	res, err := CalcVerifyBN256Add(api, buf[offset], buf[offset+1], buf[offset+2], buf[offset+3])
	buf[offset] = res[0]
	buf[offset+1] = res[1]
	return nil
}

func fr_pow(api frontend.API, a frontend.Variable, power frontend.Variable) frontend.Variable {
	res := a
	for i := new(big.Int).SetUint64(1); i.Cmp(power.(*big.Int)) < 0; {
		i = i.Add(i, big.NewInt(1))
		res = api.Mul(res, a)
	}

	return mod(api, res)
}

func fr_mul(api frontend.API, a frontend.Variable, b frontend.Variable) frontend.Variable {
	product := api.Mul(a, b)
	return mod(api, product)
}

func mod(api frontend.API, a frontend.Variable) frontend.Variable {
	results, err := api.Compiler().NewHint(modHint, 2, a)
	if err != nil {
		return err
	}
	api.AssertIsEqual(api.Add(results[1], api.Mul(results[0], MODULUS)), a)
	return results[1]
}

func modHint(_ *big.Int, inputs []*big.Int, results []*big.Int) error {
	d := new(big.Int).Div(inputs[0], MODULUS)
	r := new(big.Int).Mod(inputs[0], MODULUS)

	results[0] = d
	results[1] = r

	return nil
}

func fr_mul_neg(api frontend.API, a frontend.Variable, b frontend.Variable) frontend.Variable {
	tmp := fr_mul(api, a, b)
	return new(big.Int).Sub(MODULUS, tmp.(*big.Int))
}

func fr_add(api frontend.API, a frontend.Variable, b frontend.Variable) frontend.Variable {
	sum := api.Add(a, b)
	return mod(api, sum)
}

func fr_sub(api frontend.API, a frontend.Variable, b frontend.Variable) frontend.Variable {
	dec := api.Sub(a, b)
	return mod(api, dec)
}

func fr_div(api frontend.API, a frontend.Variable, b frontend.Variable, aux frontend.Variable) frontend.Variable {
	r := fr_mul(api, b, aux)
	api.AssertIsEqual(r, a)
	return mod(api, aux)
}

func fr_neg(api frontend.API, a frontend.Variable) frontend.Variable {
	return api.Sub(MODULUS, a)
}

func fr_from_string(str string) frontend.Variable {
	ele, _ := new(big.Int).SetString(str, 10)
	return ele
}
"#

/-- The text of /repo/circuit.go:1-184. -/
def goCircuit : String := r#"package main

import (
	"bytes"
	"github.com/consensys/gnark-crypto/ecc/bn254/fp"
	"log"
	"math/big"

	"github.com/consensys/gnark/frontend"
	"github.com/consensys/gnark/std/math/uints"
	"github.com/ethereum/go-ethereum/crypto"
)

type AggregatorCircuit struct {
	Proof      []frontend.Variable
	VerifyInst []frontend.Variable
	Aux        []frontend.Variable
	TargetInst []frontend.Variable `gnark:",public"`
}

func (circuit *AggregatorCircuit) Define(api frontend.API) error {
	buf := [43]frontend.Variable{}
	for i := 0; i < 43; i++ {
		buf[i] = new(big.Int).SetUint64(0)
	}

	// step 0: calc real verify instance with keccak
	var bufLen = 0
	for i := 0; i < len(circuit.TargetInst); i++ {
		buf[bufLen] = circuit.TargetInst[i]
		bufLen++
	}

	for i := 0; i < len(circuit.VerifyInst); i++ {
		buf[bufLen] = circuit.VerifyInst[i]
		bufLen++
	}

	//var hashBuf bytes.Buffer
	//for i := 0; i < bufLen; i++ {
	//	fpTmp, err := new(fp.Element).SetInterface(buf[i])
	//	if err != nil {
	//		return err
	//	}
	//	input := fpTmp.Bytes()
	//	hashBuf.Write(input[:])
	//}
	//
	//hashValHex := crypto.Keccak256Hash(hashBuf.Bytes())
	//hashValBig := big.NewInt(0).SetBytes(hashValHex.Bytes())
	//log.Println("hashValBig", hashValBig)
	//
	//input := uints.NewU8Array(hashBuf.Bytes())
	//hashVar := uints.NewU8Array(hashValHex.Bytes())
	//err := VerifyKeccak256(api, input, hashVar)
	//if err != nil {
	//	log.Println(err)
	//	return err
	//}

	hashValBig, err := VerifyInstanceHash(api, buf[:bufLen])
	if err != nil {
		log.Println(err)
		return err
	}

	//q, _ := big.NewInt(0).SetString(FrModulus, 10)
	//hashMod := big.NewInt(0).Mod(hashValBig, q)
	hashMod := mod(api, hashValBig)
	log.Println("hashMod: ", hashMod)
	buf[2] = hashMod

	err = CalcVerifyCircuitLagrange(api, buf[:])
	if err != nil {
		return err
	}

	log.Println("CalcVerifyCircuitLagrange", buf[0], buf[1], buf[2])

	err = GetChallengesShPlonkCircuit(api, buf[:], circuit.Proof)
	if err != nil {
		return err
	}
	//log.Println("GetChallengesShPlonkCircuit", "\n", buf[0], "\n", buf[1], "\n", buf[2], "\n", buf[3], "\n", buf[4], "\n", buf[5], "\n", buf[6], "\n", buf[7], "\n", buf[8], "\n", buf[9])

	buf, err = VerifyProof1(api, circuit.Proof, circuit.Aux, buf)
	if err != nil {
		return err
	}

	buf, err = VerifyProof2(api, circuit.Proof, circuit.Aux, buf)
	if err != nil {
		return err
	}

	buf, err = VerifyProof3(api, circuit.Proof, circuit.Aux, buf)
	if err != nil {
		return err
	}

	err = VerifyNotZero(api, buf[10])
	if err != nil {
		return err
	}
	err = VerifyNotZero(api, buf[11])
	if err != nil {
		return err
	}
	err = VerifyNotZero(api, buf[12])
	if err != nil {
		return err
	}
	err = VerifyNotZero(api, buf[13])
	if err != nil {
		return err
	}

	witnessCircuit := BN256PairingCircuit{}
	witnessCircuit.FillVerifyCircuitsG1(
		buf[10], buf[11], buf[12], buf[13],
	)
	witnessCircuit.FillVerifyCircuitsG2()
	err = VerifyBN256Pairing(api, witnessCircuit.G1Points[:], witnessCircuit.G2Points[:])
	return err
}

func VerifyInstanceHash(api frontend.API, inputs []frontend.Variable) (frontend.Variable, error) {
	length := 32 * (len(inputs) + 1)
	result, err := api.Compiler().NewHint(Keccak256Hint, 1+length, inputs...)
	if err != nil {
		return nil, err
	}

	//scalarBits := api.ToBinary(result[0], 256)
	binaryF, err := uints.New[uints.U32](api)
	if err != nil {
		return nil, err
	}

	var hashU8Array, inputU8Array []uints.U8
	for i := 1; i < 33; i++ {
		hashU8Array = append(hashU8Array, binaryF.ByteValueOf(result[i]))
	}

	for i := 33; i < length+1; i++ {
		inputU8Array = append(inputU8Array, binaryF.ByteValueOf(result[i]))
	}

	//input := uints.NewU8Array(result[0].(*big.Int).Bytes())
	//hashVar := uints.NewU8Array(result[0].(*big.Int).Bytes())
	err = VerifyKeccak256(api, inputU8Array, hashU8Array)
	log.Println(err)
	return PackUInt8Variables(api, result[1:33]...), err
	//return result[0], err
}

func Keccak256Hint(_ *big.Int, inputs []*big.Int, results []*big.Int) error {
	var hashBuf bytes.Buffer
	for i := 0; i < len(inputs); i++ {
		fpEle := new(fp.Element).SetBigInt(inputs[i])
		input := fpEle.Bytes()
		hashBuf.Write(input[:])
	}
	hashValHex := crypto.Keccak256Hash(hashBuf.Bytes())
	hashValBig := big.NewInt(0).SetBytes(hashValHex.Bytes())
	//log.Println("hashBuf.Bytes()", hashBuf.Bytes())
	//log.Println("hashValBig", hashValBig)
	//log.Println("hashValHex", hashValHex.Bytes())

	//results[0] = big.NewInt(0).SetBytes(hashBuf.Bytes())
	results[0] = hashValBig
	i := 1
	for _, bigByte := range hashValHex.Bytes() {
		results[i] = new(big.Int).SetBytes([]byte{bigByte})
		i++
	}

	for _, bigByte := range hashBuf.Bytes() {
		results[i] = new(big.Int).SetBytes([]byte{bigByte})
		i++
	}

	return nil
}
"#

/-- The text of /repo/msm.go:1-157. -/
def goMsm : String := r#"package main

import (
	"github.com/consensys/gnark-crypto/ecc/bn254/fp"
	"github.com/consensys/gnark/frontend"
	"github.com/consensys/gnark/std/algebra/emulated/sw_emulated"
	"github.com/consensys/gnark/std/math/emulated"
	"github.com/consensys/gnark/std/math/emulated/emparams"
)

type MultiScalarMul[T, S emulated.FieldParams] struct {
	Points  []sw_emulated.AffinePoint[T]
	Scalars []emulated.Element[S]
	Res     sw_emulated.AffinePoint[T]
}

func (c *MultiScalarMul[T, S]) Define(api frontend.API) error {
	return VerifyMultiScalarMul(api, c.Points, c.Scalars, c.Res)
}

func VerifyMultiScalarMul[T, S emulated.FieldParams](api frontend.API, points []sw_emulated.AffinePoint[T], scalars []emulated.Element[S], expected sw_emulated.AffinePoint[T]) error {
	cr, err := sw_emulated.New[T, S](api, sw_emulated.GetCurveParams[T]())
	if err != nil {
		return err
	}
	ps := make([]*sw_emulated.AffinePoint[T], len(points))
	for i := range points {
		ps[i] = &points[i]
	}
	ss := make([]*emulated.Element[S], len(scalars))
	for i := range scalars {
		ss[i] = &scalars[i]
	}
	res, err := cr.MultiScalarMul(ps, ss)
	if err != nil {
		return err
	}
	cr.AssertIsEqual(res, &expected)
	return nil
}

type BN254ScalarMul struct {
	Point  [2]frontend.Variable
	Scalar frontend.Variable
	Res    [2]frontend.Variable
}

func (c *BN254ScalarMul) Define(api frontend.API) error {
	return VerifyBN254ScalarMul(api, c.Point, c.Scalar, c.Res)
}

func VerifyBN254ScalarMul(
	api frontend.API, point [2]frontend.Variable, scalar frontend.Variable, expected [2]frontend.Variable,
) error {
	cr, err := sw_emulated.New[emparams.BN254Fp, emparams.BN254Fr](api, sw_emulated.GetCurveParams[emparams.BN254Fp]())
	if err != nil {
		return err
	}
	x, err := new(fp.Element).SetInterface(point[0])
	if err != nil {
		return err
	}
	y, err := new(fp.Element).SetInterface(point[1])
	if err != nil {
		return err
	}
	ps := &sw_emulated.AffinePoint[emulated.BN254Fp]{
		X: emulated.ValueOf[emparams.BN254Fp](x),
		Y: emulated.ValueOf[emparams.BN254Fp](y),
	}
	scalarEle, err := new(fp.Element).SetInterface(scalar)
	if err != nil {
		return err
	}

	s := emulated.ValueOf[emparams.BN254Fr](*scalarEle)
	res := cr.ScalarMul(ps, &s)

	expectedX, err := new(fp.Element).SetInterface(expected[0])
	if err != nil {
		return err
	}
	expectedY, err := new(fp.Element).SetInterface(expected[1])
	if err != nil {
		return err
	}
	expectedRes := sw_emulated.AffinePoint[emparams.BN254Fp]{
		X: emulated.ValueOf[emparams.BN254Fp](expectedX),
		Y: emulated.ValueOf[emparams.BN254Fp](expectedY),
	}
	cr.AssertIsEqual(res, &expectedRes)
	return nil
}

type BN254Add struct {
	Point1      [2]frontend.Variable
	Point2      [2]frontend.Variable
	ExpectedRes [2]frontend.Variable
}

func (c *BN254Add) Define(api frontend.API) error {
	return VerifyBN254Add(api, c.Point1, c.Point2, c.ExpectedRes)
}

func VerifyBN254Add(
	api frontend.API, point1 [2]frontend.Variable, point2 [2]frontend.Variable, expected [2]frontend.Variable,
) error {
	cr, err := sw_emulated.New[emparams.BN254Fp, emparams.BN254Fr](api, sw_emulated.GetCurveParams[emparams.BN254Fp]())
	if err != nil {
		return err
	}

	x1, err := new(fp.Element).SetInterface(point1[0])
	if err != nil {
		return err
	}
	y1, err := new(fp.Element).SetInterface(point1[1])
	if err != nil {
		return err
	}
	ps1 := &sw_emulated.AffinePoint[emulated.BN254Fp]{
		X: emulated.ValueOf[emparams.BN254Fp](x1),
		Y: emulated.ValueOf[emparams.BN254Fp](y1),
	}

	x2, err := new(fp.Element).SetInterface(point2[0])
	if err != nil {
		return err
	}
	y2, err := new(fp.Element).SetInterface(point2[1])
	if err != nil {
		return err
	}
	ps2 := &sw_emulated.AffinePoint[emulated.BN254Fp]{
		X: emulated.ValueOf[emparams.BN254Fp](x2),
		Y: emulated.ValueOf[emparams.BN254Fp](y2),
	}

	res := cr.AddUnified(ps1, ps2)

	expectedX, err := new(fp.Element).SetInterface(expected[0])
	if err != nil {
		return err
	}
	expectedY, err := new(fp.Element).SetInterface(expected[1])
	if err != nil {
		return err
	}
	expectedRes := sw_emulated.AffinePoint[emparams.BN254Fp]{
		X: emulated.ValueOf[emparams.BN254Fp](expectedX),
		Y: emulated.ValueOf[emparams.BN254Fp](expectedY),
	}
	//log.Println(res)
	//log.Println(&expectedRes)
	cr.AssertIsEqual(res, &expectedRes)
	return nil
}
"#

/-- The text of /repo/utils.go:1-15. -/
def goUtils : String := r#"package main

import (
	"github.com/consensys/gnark/frontend"
	"math/big"
)

func PackUInt8Variables(api frontend.API, inputs ...frontend.Variable) frontend.Variable {
	res := inputs[0]
	for _, input := range inputs[1:] {
		res = api.Mul(res, new(big.Int).Exp(big.NewInt(2), big.NewInt(8), nil))
		res = api.Add(res, input)
	}
	return res
}
"#

/-- The text of /repo/hash.go:1-47. -/
def goHash : String := r#"package main

import (
	"fmt"
	"math/big"

	"github.com/consensys/gnark/frontend"
	"github.com/consensys/gnark/std/math/uints"
)

func ValueOf(api frontend.API, a []frontend.Variable) []uints.U8 {
	length := 32 * len(a)
	var r = make([]uints.U8, length)
	//bts, err := api.Compiler().NewHint(toBytes, length, a)
	//if err != nil {
	//	panic(err)
	//}
	// TODO: add constraint which ensures that map back to
	//for i := range bts {
	//	r[i] = bts[i]
	//}

	return r[:]
}

func toBytes(m *big.Int, inputs []*big.Int, outputs []*big.Int) error {
	if len(inputs) != 1 {
		return fmt.Errorf("input must be 1 elements")
	}
	nbLimbs := 32
	if len(outputs) != nbLimbs {
		return fmt.Errorf("output must be 8 elements")
	}
	if !inputs[1].IsUint64() {
		return fmt.Errorf("input must be 64 bits")
	}
	base := new(big.Int).Lsh(big.NewInt(1), uint(8))
	tmp := new(big.Int).Set(inputs[1])
	for i := 0; i < nbLimbs; i++ {
		outputs[i].Mod(tmp, base)
		tmp.Rsh(tmp, 8)
	}

	inputs[0].FillBytes(make([]byte, 32))

	return nil
}
"#

end Verif
