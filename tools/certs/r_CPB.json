{"72871": null, "1697": null, "11871560353": [["72871", "2", "4247524225"], ["1697", "2", "6392729694"]], "584663": null, "1169327": [["584663", "2", "389776"]], "149534060761757266733": [["11871560353", "2", "61680273913378957716"], ["1169327", "2", "68038899055771849444"]], "498089": null, "36858587": [["498089", "2", "6573041"]], "434415306383": [["36858587", "2", "18906146143"]], "3179810722570773882487420182434062983086216957": [["149534060761757266733", "2", "1131198889788821689777097254823043798829201810"], ["434415306383", "2", "2735321266448532755245222384371173933381523782"]], "611535319489737880361765400867656717933201264526640746251": [["3179810722570773882487420182434062983086216957", "2", "471413934487769432374251828280751092679839132827820112756"]], "57896044618658097711785492504343953927102133160255826820068844496087732066703": [["611535319489737880361765400867656717933201264526640746251", "2", "35234120789041054753050344290272704651564156926587979179037569654741169670773"]]}