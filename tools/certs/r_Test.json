{"2843": null, "733": null, "13128689701": [["2843", "2", "9580069776"], ["733", "2", "10335297839"]], "138452816382647330969": [["13128689701", "2", "15300045002273069413"]], "1063": null, "11": null, "7": null, "198897931": [["1063", "2", "26708454"], ["11", "2", "156405420"], ["7", "2", "32810143"]], "13127263447": [["198897931", "2", "12547304295"]], "30691541939087": [["13127263447", "2", "668136856335"]], "10264479286108256281": [["30691541939087", "2", "8816454455903124511"]], "296379762614331847955351590674378453956751398521495687": [["138452816382647330969", "2", "95798094832671086541467849670999136200130990368949746"], ["10264479286108256281", "2", "201765172724696247027772286659275649097673966965975657"]], "57896044618658097711785492504343953927082934583725450622380973592137631069619": [["296379762614331847955351590674378453956751398521495687", "2", "54470367955736231426979521199636705512397715568445245376278105703530280567445"]]}